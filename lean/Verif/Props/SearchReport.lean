import Verif.Props.State
import Verif.Props.ErrApi
/-! # What the master is told about the end of a search -/
namespace LiCan

namespace Spec

/-- Errors reported one after the other with `error_syserr_send`: number, priority, module number. -/
def reports (env : AEnv) (q : ErrQ) (l : List (Err × Prio × Nat)) : ErrQ :=
  if env.sysErr then l.foldl (fun q r => (q.syserrSend4 env.qSize r.1 r.2.1 r.2.2 r.2.1).1) q else q

/-- The error number for a rate found, by its place among 125, 250, 500 and 1000 kBit/s: from 0x5052 on for a
search at startup, from 0x5056 on for one while running. -/
def foundNr (k : Search) (b : Nat) : List Err :=
  match [125, 250, 500, 1000].findIdx? (· == b), k with
  | some i, .startup => [0x5052#16 + BitVec.ofNat 16 i]
  | some i, .online => [0x5056#16 + BitVec.ofNat 16 i]
  | none, _ => []

/-- the queue of the errors, and the number under which the node reports -/
def errq (s : Stack) : ErrQ := s.slv.node.errq
def firstNr (s : Stack) : Nat := (s.slv.node.rows 0).nr

/-- What a processing may report besides: a frame the driver did not take. -/
def Extra (env : AEnv) (s : Stack) (r : List (Err × Prio × Nat)) : Prop :=
  (r = [] ∨ r = [(0x5078#16, 4, firstNr s)]) ∧ ((∀ k, env.sendOk k = true) → r = [])

/-- a search at startup without a frame received and without an error -/
def Silence (s : Stack) : Prop := s.rc.state = .startup ∧ s.rc.pending ≠ .msg

instance (s : Stack) : Decidable (Silence s) := inferInstanceAs (Decidable (_ ∧ _))

end Spec

namespace Stack
open Spec
open Node (exMem)

variable {env : AEnv}

theorem connectErr_eq (b : Nat) : (connectErr true b).toList = foundNr .startup b ∧ (connectErr false b).toList = foundNr .online b := by
  by_cases h1 : b = 125
  · subst h1; exact ⟨by decide, by decide⟩
  by_cases h2 : b = 250
  · subst h2; exact ⟨by decide, by decide⟩
  by_cases h3 : b = 500
  · subst h3; exact ⟨by decide, by decide⟩
  by_cases h4 : b = 1000
  · subst h4; exact ⟨by decide, by decide⟩
  have e : [125, 250, 500, 1000].findIdx? (· == b) = none := by
    rw [List.findIdx?_eq_none_iff]
    intro x hx
    simp only [List.mem_cons, List.not_mem_nil, or_false] at hx
    rcases hx with rfl | rfl | rfl | rfl
    · exact beq_false_of_ne (fun e => h1 e.symm)
    · exact beq_false_of_ne (fun e => h2 e.symm)
    · exact beq_false_of_ne (fun e => h3 e.symm)
    · exact beq_false_of_ne (fun e => h4 e.symm)
  have a : ∀ x, connectErr x b = none := by
    intro x
    unfold connectErr
    split <;> first | rfl | exact absurd rfl ‹_›
  constructor <;> (unfold foundNr; rw [e, a]; rfl)

theorem nextBaud_node (env : AEnv) (s : Stack) (now : Nat) : (s.nextBaud env now).slv.node = s.slv.node := by
  unfold Stack.nextBaud
  dsimp only
  generalize (if s.rc.idx < 3 then s.rc.idx + 1 else 0) = i
  by_cases h : ((s.nodeMode env .stopped).1.baudRate env (rcTab.getD i 0)).2 = E.ok
  · rw [if_pos h]; rfl
  · rw [if_neg h]; rfl

theorem rcOn_node (env : AEnv) (s : Stack) (now : Nat) (first : Bool) : (s.rcOn env now first).slv.node = s.slv.node := by
  unfold Stack.rcOn
  cases first with
  | true => rfl
  | false => exact nextBaud_node env _ now

theorem rcSwitch_node (env : AEnv) (s : Stack) (now : Nat) : (s.rcSwitch env now).slv.node = s.slv.node := by
  unfold Stack.rcSwitch
  split
  · exact nextBaud_node env _ now
  · rfl

theorem notify_errq (s : Stack) (f : Option Nat) (c : Nat → ACall) : errq (s.notify f c) = errq s := by
  unfold Stack.notify
  split <;> rfl

theorem report_errq (env : AEnv) (s : Stack) (e : Option Err) :
    errq (s.reportUnaware env e) = reports env (errq s) (e.toList.map fun e => (e, 1, firstNr s)) := by
  unfold Stack.reportUnaware reports
  cases e with
  | none => simp
  | some e =>
    dsimp only
    split
    · rfl
    · rfl

/-- why nothing is reported, and what otherwise -/
def endReport (c : RCause) (b : Nat) : List Err :=
  match c with
  | .startup => foundNr .startup b
  | .ewrn | .boff => foundNr .online b
  | _ => []

theorem reports_nil (env : AEnv) (q : ErrQ) : reports env q [] = q := by unfold reports; split <;> rfl

theorem rcDone_errq (env : AEnv) (s : Stack) (b : Nat) :
    errq (s.rcDone env b) = reports env (errq s) ((endReport s.rc.cause b).map fun e => (e, 1, firstNr s)) := by
  unfold Stack.rcDone endReport
  obtain ⟨e1, e2⟩ := connectErr_eq b
  cases s.rc.cause with
  | startup => dsimp only; rw [notify_errq, report_errq, e1]; rfl
  | ewrn => dsimp only; rw [notify_errq, report_errq, e2]; rfl
  | boff => dsimp only; rw [notify_errq, report_errq, e2]; rfl
  | noTraffic => dsimp only; rw [notify_errq]; exact (reports_nil env _).symm
  | download => exact (reports_nil env _).symm

theorem rcOff_errq (env : AEnv) (s : Stack) (now : Nat) :
    (errq (s.rcOff env now) = reports env (errq s) ((endReport s.rc.cause s.rc.back).map fun e => (e, 1, firstNr s)) ∧
      logOf (s.rcOff env now) = stopCall s.rc s.rc.back ++ logOf s) ∨
    ¬ (∀ k, env.modeOk k = true) ∧ errq (s.rcOff env now) = errq s ∧ logOf (s.rcOff env now) = logOf s := by
  obtain ⟨m1, m2, m3, m4, m5, m6⟩ := Slave.setMode_mode env.toEnv s.slv.link .stopped
  have key : ∀ r1 : Stack × Err, r1 = ((s.setR fun c => { c with process := false }).nodeMode env .stopped).1.baudRate env s.rc.back →
      r1.2 = E.ok ∧ r1.1.rc = { s.rc with process := false } ∧ r1.1.slv.node = s.slv.node := by
    rintro r1 rfl
    have hr : (((s.setR fun c => { c with process := false }).nodeMode env .stopped).1.baudRate env s.rc.back).2 =
        (Slave.setBaud (Slave.setMode env.toEnv s.slv.link .stopped).1 s.rc.back).2 := rfl
    rw [hr]
    by_cases h : Rate s.rc.back
    · rw [Slave.setBaud_stopped _ _ m1 h]
      exact ⟨rfl, rfl, rfl⟩
    · rw [Slave.setBaud_other _ _ h]
      exact ⟨rfl, rfl, rfl⟩
  unfold Stack.rcOff
  dsimp only
  obtain ⟨h1, h2, h3⟩ := key _ rfl
  rw [if_pos h1]
  generalize ((s.setR fun c => { c with process := false }).nodeMode env .stopped).1.baudRate env s.rc.back = r at *
  have hrc : (r.1.nodeMode env .operational).1.rc = r.1.rc := rfl
  have hnd : (r.1.nodeMode env .operational).1.slv.node = r.1.slv.node := rfl
  have hd : (∀ k, env.modeOk k = true) → (r.1.nodeMode env .operational).2 = E.ok := fun h =>
    (Slave.setMode_ok h r.1.slv.link .operational).1
  generalize r.1.nodeMode env .operational = q at *
  by_cases hq : q.2 = E.ok
  · rw [if_pos hq, if_pos hq]
    left
    generalize hw : ({ q.1 with lcsa := .running }.setR fun c => { c with state := .off, nr := u16 (c.nr + 1) }) = w
    have w1 : w.rc.cause = s.rc.cause := by rw [← hw]; show q.1.rc.cause = _; rw [hrc, h2]
    have w2 : stopCall w.rc s.rc.back = stopCall s.rc s.rc.back := by
      rw [← hw]
      show stopCall { q.1.rc with state := .off, nr := _ } _ = _
      rw [hrc, h2]; rfl
    have w3 : w.slv.node = s.slv.node := by rw [← hw]; exact hnd.trans h3
    refine ⟨?_, ?_⟩
    · show errq (w.rcDone env s.rc.back) = _
      rw [rcDone_errq, w1]
      unfold errq firstNr
      rw [w3]
    · show logOf (w.rcDone env s.rc.back) = _
      rw [(rcDone_spec env w s.rc.back).2, w2]
      unfold logOf
      rw [w3]
  · rw [if_neg hq, if_neg hq]
    right
    exact ⟨fun h => hq (hd h), congrArg Node.errq (hnd.trans h3), congrArg Node.log (hnd.trans h3)⟩

/-- `li_can_slv_reconnect_process` ends the search or leaves the modules and their errors alone -/
theorem rcProcess_node (env : AEnv) (s : Stack) (now : Nat) (intid : Pending) (lec : Lec) :
    (s.rcProcess env now intid lec).slv.node = s.slv.node ∨
    ∃ c, EndWhy env s now intid lec c ∧ s.rcProcess env now intid lec = (s.setR fun _ => c).rcOff env now := by
  by_cases hp : s.rc.process = true
  · by_cases hs : Searching s
    · have hT := rcProcess_turn env s now intid lec hs hp
      by_cases he : ∃ c, EndWhy env s now intid lec c ∧ s.rcProcess env now intid lec = (s.setR fun _ => c).rcOff env now
      · exact .inr he
      · left
        unfold Stack.rcProcess at he ⊢
        rw [if_neg (by rw [hp]; decide)] at he ⊢
        rcases hs with h | h | h
        · rw [h] at he ⊢
          dsimp only at he ⊢
          by_cases h1 : intid = .msg
          · rw [if_pos h1] at he; exact absurd ⟨_, .suMsg h h1 rfl, rfl⟩ he
          rw [if_neg h1] at he ⊢
          by_cases h2 : s.rc.time < now
          · rw [if_pos h2] at he; exact absurd ⟨_, .suTime h h1 h2 rfl, rfl⟩ he
          rw [if_neg h2] at he ⊢
          split
          · exact rcOn_node env _ now false
          · split
            · exact nextBaud_node env _ now
            · rfl
        · rw [h] at he ⊢
          dsimp only at he ⊢
          have hself : ∀ t : Stack, t = s → t.rcOff env now = (s.setR fun _ => s.rc).rcOff env now := by
            rintro t rfl; rfl
          by_cases h1 : intid = .msg
          · rw [if_pos h1] at he; exact absurd ⟨_, .msg h h1 rfl, hself s rfl⟩ he
          rw [if_neg h1] at he ⊢
          by_cases h2 : intid = .lec ∧ lec = .none
          · rw [if_pos h2] at he ⊢
            exact rcSwitch_node env _ now
          rw [if_neg h2] at he ⊢
          cases lec with
          | none =>
            have h5 : intid = .none := by
              cases intid with
              | none => rfl
              | lec => exact absurd ⟨rfl, rfl⟩ h2
              | msg => exact absurd rfl h1
            exact absurd ⟨_, .noErr h h5 rfl rfl, hself s rfl⟩ he
          | bit0 =>
            dsimp only at he ⊢
            by_cases hb : 10 ≤ (s.setR fun c => { c with bit0 := u16 (c.bit0 + 1) }).rc.bit0
            · rw [if_pos hb] at he
              exact absurd ⟨_, .bit0 h rfl hb rfl, rfl⟩ he
            · rw [if_neg hb]; rfl
          | undef =>
            dsimp only at he ⊢
            by_cases hi : intid = .none
            · rw [if_pos hi] at he
              exact absurd ⟨_, .undef h rfl hi rfl, hself s rfl⟩ he
            · rw [if_neg hi]
          | stuff => exact rcSwitch_node env _ now
          | form => exact rcSwitch_node env _ now
          | ack => exact rcSwitch_node env _ now
          | bit1 => exact rcSwitch_node env _ now
          | crc => exact rcSwitch_node env _ now
        · rw [h]
          dsimp only
          split <;> rfl
    · left
      unfold Stack.rcProcess
      rw [if_neg (by rw [hp]; decide)]
      cases h : s.rc.state with
      | off => rfl
      | deactivated => rfl
      | startup => exact absurd (.inl h) hs
      | on => exact absurd (.inr (.inl h)) hs
      | idle => exact absurd (.inr (.inr h)) hs
  · left
    unfold Stack.rcProcess
    rw [if_pos (by cases h : s.rc.process with | true => exact absurd h hp | false => rfl)]

theorem rcError_errq (env : AEnv) (s : Stack) (now : Nat) (c : RCause) :
    errq (s.rcError env now c) = errq s ∧ (s.rcError env now c).slv.node.rows = s.slv.node.rows := by
  have e : ∀ t : Stack, t.slv.node = (s.notify s.rc.onStart .onStart).slv.node → errq t = errq s ∧ t.slv.node.rows = s.slv.node.rows := by
    intro t ht
    unfold errq
    rw [ht]
    unfold Stack.notify
    split <;> exact ⟨rfl, rfl⟩
  unfold Stack.rcError
  split
  · exact e _ (rcOn_node env _ now false)
  · exact ⟨rfl, rfl⟩

theorem nodeReport_errq (env : AEnv) (n : Node) (e : Err) :
    (n.report env.toEnv e).errq = reports env n.errq (if e = E.ok then [] else [(e, 4, (n.rows 0).nr)]) := by
  unfold Node.report reports
  by_cases he : e = E.ok
  · rw [if_neg (fun h => h.2 he), if_pos he]; split <;> rfl
  · rw [if_neg he]
    by_cases hs : env.sysErr = true
    · rw [if_pos ⟨hs, he⟩, if_pos hs]; rfl
    · rw [if_neg (fun h => hs h.1), if_neg hs]

theorem handleQ_errq (env : AEnv) (s : Stack) (hq : 0 < s.q.state) :
    (handleQ env s).1.slv.node.errq = s.slv.node.errq ∧ (handleQ env s).1.slv.node.rows = s.slv.node.rows ∧
    (handleQ env s).2 = if env.sendOk s.slv.node.sendN then E.ok else 0x5078#16 := by
  unfold handleQ
  rw [if_pos hq]
  unfold Node.send
  dsimp only
  by_cases hok : env.sendOk s.slv.node.sendN = true
  · rw [if_pos hok, if_pos rfl]
    exact ⟨rfl, rfl, rfl⟩
  · rw [if_neg hok, if_neg (by decide)]
    exact ⟨rfl, rfl, rfl⟩

theorem handlerTx_errq (env : AEnv) (s : Stack) : ∃ r, Extra env s r ∧ errq (handlerTx env s) = reports env (errq s) r := by
  have no : ∃ r, Extra env s r ∧ errq s = reports env (errq s) r := ⟨[], ⟨.inl rfl, fun _ => rfl⟩, (reports_nil env _).symm⟩
  unfold handlerTx
  split
  · split
    · next hq =>
      obtain ⟨a, b, c⟩ := handleQ_errq env s hq
      generalize handleQ env s = r at a b c ⊢
      have e := nodeReport_errq env r.1.slv.node r.2
      rw [a, b, c] at e
      rw [← c] at e
      refine ⟨if r.2 = E.ok then [] else [(r.2, 4, (s.slv.node.rows 0).nr)], ?_, e⟩
      rw [c]
      by_cases hok : env.sendOk s.slv.node.sendN = true
      · rw [if_pos hok, if_pos rfl]; exact ⟨.inl rfl, fun _ => rfl⟩
      · rw [if_neg hok, if_neg (by decide)]; exact ⟨.inr rfl, fun h => absurd (h _) hok⟩
    · exact no
  · exact no

theorem processTx_errq (env : AEnv) (s : Stack) (now : Nat) :
    ∃ r, Extra env s r ∧ errq (s.processTx env now).1 = reports env (errq s) r := by
  have no : ∃ r, Extra env s r ∧ errq s = reports env (errq s) r := ⟨[], ⟨.inl rfl, fun _ => rfl⟩, (reports_nil env _).symm⟩
  have en : ∀ nr dlc src, ∃ r, Extra env s r ∧ errq (s.enqueue env nr dlc src).1 = reports env (errq s) r := by
    intro nr dlc src
    unfold Stack.enqueue
    split
    · exact no
    · split
      · exact no
      · obtain ⟨r, h1, h2⟩ := handlerTx_errq env
          { s with q := { s.q with
              buf := upd s.q.buf s.q.write ⟨asyncDataTxId nr, dlc, src.take dlc⟩
              write := if s.q.write < 3 then s.q.write + 1 else 0
              state := s.q.state + 1 } }
        exact ⟨r, h1, h2⟩
  unfold Stack.processTx
  split
  · exact no
  · split
    · split
      · have h := en s.tnl.own s.tnl.tmp.length s.tnl.tmp
        generalize s.enqueue env s.tnl.own s.tnl.tmp.length s.tnl.tmp = r at h ⊢
        dsimp only
        split
        · exact h
        · exact h
      · exact no
    · exact no

theorem reports_append (env : AEnv) (q : ErrQ) (a b : List (Err × Prio × Nat)) :
    reports env q (a ++ b) = reports env (reports env q a) b := by
  unfold reports
  split
  · rw [List.foldl_append]
  · rfl

theorem reportUnaware_rows (env : AEnv) (s : Stack) (e : Option Err) : (s.reportUnaware env e).slv.node.rows = s.slv.node.rows := by
  unfold Stack.reportUnaware
  split
  · rfl
  · split <;> rfl

theorem notify_rows (s : Stack) (f : Option Nat) (c : Nat → ACall) : (s.notify f c).slv.node.rows = s.slv.node.rows := by
  unfold Stack.notify
  split <;> rfl

theorem rcOff_rows (env : AEnv) (s : Stack) (now : Nat) : (s.rcOff env now).slv.node.rows = s.slv.node.rows := by
  have hd : ∀ (t : Stack) (b : Nat), (t.rcDone env b).slv.node.rows = t.slv.node.rows := by
    intro t b
    unfold Stack.rcDone
    cases t.rc.cause with
    | startup => dsimp only; rw [notify_rows, reportUnaware_rows]
    | ewrn => dsimp only; rw [notify_rows, reportUnaware_rows]
    | boff => dsimp only; rw [notify_rows, reportUnaware_rows]
    | noTraffic => dsimp only; rw [notify_rows]
    | download => rfl
  unfold Stack.rcOff
  dsimp only
  have h0 : (((s.setR fun c => { c with process := false }).nodeMode env .stopped).1.baudRate env s.rc.back).1.slv.node.rows =
    s.slv.node.rows := rfl
  generalize ((s.setR fun c => { c with process := false }).nodeMode env .stopped).1.baudRate env s.rc.back = r at *
  have h1 : (if r.2 = E.ok then r.1.nodeMode env .operational else r).1.slv.node.rows = s.slv.node.rows := by
    split
    · exact h0
    · exact h0
  generalize (if r.2 = E.ok then r.1.nodeMode env .operational else r) = q at *
  by_cases hq : q.2 = E.ok
  · rw [if_pos hq, if_pos hq]
    exact (hd _ _).trans h1
  · rw [if_neg hq, if_neg hq]
    exact h1

/-- a search that has met an error is not one that ends for want of traffic -/
def NoQ (s : Stack) : Prop := s.rc.state = .on ∨ s.rc.state = .idle → s.rc.cause ≠ .noTraffic

theorem NoQ.rc {s s' : Stack} (h : s'.rc = s.rc) (hp : NoQ s) : NoQ s' := by unfold NoQ; rw [h]; exact hp

theorem NoQ.not {s : Stack} (h : ¬ Searching s) : NoQ s := fun e => absurd (.inr e) h

theorem NoQ.turn {s s' : Stack} {now : Nat} {intid : Pending} {lec : Lec} (h : NoQ s) (t : Turn env now intid lec s s') : NoQ s' := by
  cases t with
  | ended c w e => exact .not (not_searching (off_of_turn_ended e))
  | switched st c b k hst hrc =>
    intro hs
    rw [hrc] at hs ⊢
    have hs : st = .on ∨ st = .idle := hs
    show c ≠ .noTraffic
    rcases hst with ⟨-, ⟨e, -⟩ | ⟨-, e⟩⟩ | ⟨e0, -, -, e, -⟩
    · rw [e] at hs; rcases hs with hs | hs <;> cases hs
    · rw [e]; decide
    · rw [e]; exact h (.inl e0)
  | same st b k hst hk e =>
    subst e
    intro hs
    have hs : st = .on ∨ st = .idle := hs
    show s.rc.cause ≠ .noTraffic
    rcases hst with e | ⟨e, -⟩
    · exact h (by rw [e]; exact hs)
    · exact h (.inr e)

theorem NoQ.process {s : Stack} (hi : Srch s) (h : NoQ s) (now : Nat) (bus : BusState) (lec : Lec) : NoQ (s.process env now bus lec) := by
  obtain ⟨p, hp⟩ := Slave.trigger_eq env.toEnv s.slv now
  unfold Stack.process
  rw [hp]
  dsimp only
  have t2 : ({ s with slv := { s.slv with sync := { s.slv.sync with periode := p } } } : Stack).rc = s.rc := rfl
  generalize ({ s with slv := { s.slv with sync := { s.slv.sync with periode := p } } } : Stack) = t at t2 ⊢
  have ht := hi.rc t2
  refine NoQ.rc (Keep.processTx env (t.hwError env now bus lec) now).1 ?_
  have h := h.rc t2
  unfold Stack.hwError
  dsimp only
  rcases ht.proc with ho | ⟨hs, hpr⟩
  · by_cases hc : (bus ≠ .active ∨ lec ≠ .none) ∧ t.rc.state = .off
    case neg => rw [if_neg hc, if_neg (fun e => e ho)]; exact h
    rw [if_pos hc]
    have key := Started.hw (env := env) ho now bus lec
    generalize (t.hwBusOff env now bus lec).hwPassive env now bus = y at key ⊢
    rcases key with ⟨k1, k2⟩ | ⟨cause, k1, k2, k3, i, b, n, k4⟩
    · rw [if_neg (fun e => e (by rw [k1]; exact ho))]; exact h.rc k1
    · have hy : y.rc.state = .on := by rw [k4]
      rw [if_pos (by rw [hy]; decide)]
      have hn : NoQ y := fun _ => by rw [k4]; rcases k1 with e | e <;> rw [e] <;> exact (fun h => nomatch h)
      exact hn.turn (rcProcess_turn env y now y.rc.pending lec (.inr (.inl hy)) (by rw [k4]))
  · have ho : ¬ t.rc.state = .off := fun e => not_searching e hs
    rw [if_neg (c := (bus ≠ .active ∨ lec ≠ .none) ∧ t.rc.state = .off) (fun e => ho e.2), if_pos ho]
    exact h.turn (rcProcess_turn env t now t.rc.pending lec hs hpr)

theorem NoQ.step {s s' : Stack} {i : SIn} (hi : Srch s) (h : NoQ s) (hs : s.step env i = some s') : NoQ s' := by
  by_cases h1 : ∃ now bus lec, i = .process now bus lec
  · obtain ⟨now, bus, lec, rfl⟩ := h1
    injection hs with hs
    rw [← hs]; exact h.process hi now bus lec
  by_cases h2 : ∃ now, i = .start now
  · obtain ⟨now, rfl⟩ := h2
    injection hs with hs
    rw [← hs]
    by_cases hd : s.lcsa = .download
    · have := (start_did env s now).2.2.2.2
      rw [if_pos hd] at this
      exact .not fun e => by rw [← phase_iff, this.1] at e; cases e
    · have e := (start_spec (env := env) hd now).1
      intro hx
      rw [e] at hx
      rcases hx with hx | hx <;> cases hx
  obtain ⟨r, p, a, b, c, d, -, e⟩ := other_rc hs (fun now bus lec e => h1 ⟨now, bus, lec, e⟩) (fun now e => h2 ⟨now, e⟩)
  unfold NoQ
  rw [e]; exact h

theorem NoQ.run (is : List SIn) : ∀ {s s' : Stack}, Srch s → NoQ s → s.run env is = some s' → NoQ s' := by
  induction is with
  | nil => intro s s' _ h hr; injection hr with hr; rw [← hr]; exact h
  | cons i is ih =>
    intro s s' hi h hr
    simp only [Stack.run, Option.bind_eq_some_iff] at hr
    obtain ⟨s1, h1, h2⟩ := hr
    exact ih (hi.step h1) (h.step hi h1) h2

/-- **C108**, the report: when a search ends in a history from power on, with a driver that takes the node back to
operational, `li_can_slv_process` reports exactly one error, of the lowest level and under the number of the first
module: the one that stands for the kind of the search and for the rate `b`.  `b` is the rate the controller is set
to, and the rate the application is told, if a callback is registered.  Nothing is reported if the search at startup
ended because the bus was silent.

`_partial`: `b` need not be a rate: see the counterexample, then nothing is reported. -/
theorem C108_end_reported_partial (hm : ∀ k, env.modeOk k = true) (mem : Nat → List Byte) (info : XInfo) (is : List SIn) (s : Stack)
    (hr : run env (boot mem info) is = some s) (now : Nat) (bus : BusState) (lec : Lec) (hs : Searching s)
    (he : ¬ Searching (s.process env now bus lec)) :
    ∃ k b r, Extra env s r ∧
      errq (s.process env now bus lec) =
        reports env (errq s) ((if Silence s then [] else foundNr k b).map (fun e => (e, 1, firstNr s)) ++ r) ∧
      (k = .online ↔ s.rc.cause = .ewrn ∨ s.rc.cause = .boff) ∧
      (s.rc.suStop.isSome = true → s.rc.onStop.isSome = true → told (s.process env now bus lec) = told s ++ [.ends k b]) ∧
      (Rate b → (s.process env now bus lec).slv.link.hwRate = b ∧ (s.process env now bus lec).slv.link.drv = .start) := by
  have h := (Srch.boot mem info).run (env := env) is hr
  have hno := NoQ.run (env := env) is (Srch.boot mem info) (.not (not_searching rfl)) hr
  obtain ⟨p, hp⟩ := Slave.trigger_eq env.toEnv s.slv now
  unfold Stack.process at he ⊢
  rw [hp] at he ⊢
  dsimp only at he ⊢
  have t0 : errq { s with slv := { s.slv with sync := { s.slv.sync with periode := p } } } = errq s := rfl
  have t1 : firstNr { s with slv := { s.slv with sync := { s.slv.sync with periode := p } } } = firstNr s := rfl
  have t2 : ({ s with slv := { s.slv with sync := { s.slv.sync with periode := p } } } : Stack).rc = s.rc := rfl
  have t3 : notes { s with slv := { s.slv with sync := { s.slv.sync with periode := p } } } = notes s := rfl
  generalize ({ s with slv := { s.slv with sync := { s.slv.sync with periode := p } } } : Stack) = t at t0 t1 t2 t3 he ⊢
  have ht := h.rc t2
  have hno := hno.rc t2
  have hst : Searching t := by unfold Searching; rw [t2]; exact hs
  have ho : ¬ t.rc.state = .off := fun e => not_searching e hst
  have hq : t.hwError env now bus lec = t.rcProcess env now t.rc.pending lec := by
    unfold Stack.hwError
    dsimp only
    rw [if_neg (c := (bus ≠ .active ∨ lec ≠ .none) ∧ t.rc.state = .off) (fun e => ho e.2), if_pos ho]
  rw [hq] at he ⊢
  have hpr : t.rc.process = true := by
    rcases ht.proc with e | ⟨-, e⟩
    · exact absurd e ho
    · exact e
  have hk2 := Keep.processTx env (t.rcProcess env now t.rc.pending lec) now
  have hc2 := Calm.processTx env (t.rcProcess env now t.rc.pending lec) now
  obtain ⟨r, hr1, hr2⟩ := processTx_errq env (t.rcProcess env now t.rc.pending lec) now
  have hT := rcProcess_turn env t now t.rc.pending lec hst hpr
  generalize (Stack.processTx env (t.rcProcess env now t.rc.pending lec) now).1 = w at hk2 hc2 hr2 he ⊢
  have he' : ¬ Searching (t.rcProcess env now t.rc.pending lec) := by
    intro e; refine he ?_; unfold Searching; rw [hk2.1]; exact e
  generalize t.rcProcess env now t.rc.pending lec = u at hT hk2 hc2 he' hr1 hr2
  have hnot := he'
  cases hT with
  | ended c wy e =>
    have hoff := rcOff_spec env (t.setR fun _ => c) now
    rw [← e] at hoff
    obtain ⟨-, -, o2, -, -, o3⟩ := hoff
    rcases rcOff_errq env (t.setR fun _ => c) now with ⟨q1, q2⟩ | ⟨q1, -⟩
    case inr => exact absurd hm q1
    rw [← e] at q1 q2
    have q3 := rcOff_rows env (t.setR fun _ => c) now
    rw [← e] at q3
    have hcc : ofCause c.cause = ofCause s.rc.cause ∧ c.cause ≠ .download ∧ c.suStop = s.rc.suStop ∧ c.onStop = s.rc.onStop ∧
        endReport c.cause c.back = (if Silence s then [] else foundNr (ofCause s.rc.cause) c.back) := by
      rw [← t2]
      have sil : Silence s ↔ Silence t := by unfold Silence; rw [t2]
      have ns : ∀ {l : List Err}, ¬ Silence t → l = (if Silence s then [] else l) := by
        intro l hn; rw [if_neg (fun e => hn (sil.1 e))]
      have on : t.rc.state = .on → ¬ Silence t ∧ endReport t.rc.cause t.rc.back = foundNr (ofCause t.rc.cause) t.rc.back := by
        intro hon
        refine ⟨(fun e => by rw [e.1] at hon; cases hon), ?_⟩
        have c1 := ht.cause.1 hst
        have c2 := hno (.inl hon)
        cases hcs : t.rc.cause with
        | noTraffic => exact absurd hcs c2
        | download => exact absurd hcs c1
        | startup => rfl
        | ewrn => rfl
        | boff => rfl
      have hd := ht.cause.1 hst
      cases wy with
      | suMsg h hm hq =>
        subst hq
        refine ⟨(ht.cause.2 h).symm, (fun h => nomatch h), rfl, rfl, ?_⟩
        rw [ht.cause.2 h]
        exact ns fun e => e.2 hm
      | suTime h hm _ hq =>
        subst hq
        exact ⟨(ht.cause.2 h).symm, (fun h => nomatch h), rfl, rfl, (if_pos (sil.2 ⟨h, hm⟩)).symm⟩
      | msg h hm hq => subst hq; exact ⟨rfl, hd, rfl, rfl, (on h).2.trans (ns (on h).1)⟩
      | noErr h hm hl hq => subst hq; exact ⟨rfl, hd, rfl, rfl, (on h).2.trans (ns (on h).1)⟩
      | bit0 h hl hb hq => subst hq; exact ⟨rfl, hd, rfl, rfl, (on h).2.trans (ns (on h).1)⟩
      | undef h hl hm hq => subst hq; exact ⟨rfl, hd, rfl, rfl, (on h).2.trans (ns (on h).1)⟩
    obtain ⟨c1, c2, c3, c4, c5⟩ := hcc
    have fn : firstNr u = firstNr s := by rw [← t1]; unfold firstNr; rw [q3]; rfl
    refine ⟨ofCause s.rc.cause, c.back, r, ?_, ?_, ?_, ?_, ?_⟩
    · unfold Extra at hr1 ⊢; rw [← fn]; exact hr1
    · rw [hr2, q1, reports_append, ← c5, ← t1, ← t0]
      rfl
    · cases s.rc.cause <;> simp [ofCause]
    · intro g1 g2
      obtain ⟨k1, k2⟩ := stopCall_eq c c.back c2
      have hn : notes w = endCall c (ofCause c.cause) c.back ++ notes s := by
        rw [hc2.2, ← t3]
        refine notes_log k2 ?_
        rw [q2]
        show stopCall c c.back ++ logOf t = _
        rw [k1]
      rw [told_notes hn, c1]
      congr 1
      unfold endCall
      rw [c3, c4]
      cases ofCause s.rc.cause with
      | startup =>
        dsimp only
        cases hx : s.rc.suStop with
        | none => rw [hx] at g1; cases g1
        | some f => rfl
      | online =>
        dsimp only
        cases hx : s.rc.onStop with
        | none => rw [hx] at g2; cases g2
        | some f => rfl
    · intro hb
      have o2 : u.slv.link.hwRate = if Rate c.back then c.back else t.slv.link.hwRate := o2
      rw [hk2.2, o2, if_pos hb]
      exact ⟨rfl, (o3 hm).2⟩
  | switched st c b k hst' hrc hm hl hw hss hn hlc hlog =>
    refine absurd ?_ he'
    unfold Searching
    rw [hrc]
    rcases hst' with ⟨-, ⟨e, -⟩ | ⟨e, -⟩⟩ | ⟨-, e, -⟩ <;> rw [e]
    · exact .inl rfl
    · exact .inr (.inl rfl)
    · exact .inr (.inr rfl)
  | same st b k hst' hk e =>
    subst e
    refine absurd ?_ he'
    show st = .startup ∨ st = .on ∨ st = .idle
    rcases hst' with e | ⟨-, e⟩
    · rw [← e]; exact hst
    · exact .inr (.inl e)

/-- **C108**, the other direction: a processing that does not end a search reports nothing about searches; so does one that
begins a search. -/
theorem C108_nothing_else (mem : Nat → List Byte) (info : XInfo) (is : List SIn) (s : Stack)
    (hr : run env (boot mem info) is = some s) (now : Nat) (bus : BusState) (lec : Lec)
    (he : Searching s → Searching (s.process env now bus lec)) :
    ∃ r, Extra env s r ∧ errq (s.process env now bus lec) = reports env (errq s) r := by
  have h := (Srch.boot mem info).run (env := env) is hr
  obtain ⟨p, hp⟩ := Slave.trigger_eq env.toEnv s.slv now
  unfold Stack.process at he ⊢
  rw [hp] at he ⊢
  dsimp only at he ⊢
  have t0 : errq { s with slv := { s.slv with sync := { s.slv.sync with periode := p } } } = errq s := rfl
  have t1 : firstNr { s with slv := { s.slv with sync := { s.slv.sync with periode := p } } } = firstNr s := rfl
  have t2 : ({ s with slv := { s.slv with sync := { s.slv.sync with periode := p } } } : Stack).rc = s.rc := rfl
  generalize ({ s with slv := { s.slv with sync := { s.slv.sync with periode := p } } } : Stack) = t at t0 t1 t2 he ⊢
  have ht := h.rc t2
  have hss : Searching t ↔ Searching s := by unfold Searching; rw [t2]
  have hk2 := (Keep.processTx env (t.hwError env now bus lec) now).1
  obtain ⟨r, hr1, hr2⟩ := processTx_errq env (t.hwError env now bus lec) now
  suffices g : errq (t.hwError env now bus lec) = errq t ∧ (t.hwError env now bus lec).slv.node.rows = t.slv.node.rows by
    have fn : firstNr (t.hwError env now bus lec) = firstNr s := by rw [← t1]; unfold firstNr; rw [g.2]
    exact ⟨r, by unfold Extra at hr1 ⊢; rw [← fn]; exact hr1, by rw [hr2, g.1, t0]⟩
  have he : Searching t → Searching (t.hwError env now bus lec) := by
    intro e
    have := he (hss.1 e)
    unfold Searching at this ⊢
    rw [← hk2]; exact this
  clear hr1 hr2 hk2
  have fin : ∀ y : Stack, Searching (y.rcProcess env now y.rc.pending lec) →
      errq (y.rcProcess env now y.rc.pending lec) = errq y ∧ (y.rcProcess env now y.rc.pending lec).slv.node.rows = y.slv.node.rows := by
    intro y hy
    rcases rcProcess_node env y now y.rc.pending lec with e | ⟨c, -, e⟩
    · exact ⟨congrArg Node.errq e, congrArg Node.rows e⟩
    · exact absurd hy (not_searching (off_of_turn_ended e))
  unfold Stack.hwError at he ⊢
  dsimp only at he ⊢
  rcases ht.proc with ho | ⟨hs, hpr⟩
  · by_cases hc : (bus ≠ .active ∨ lec ≠ .none) ∧ t.rc.state = .off
    case neg => rw [if_neg hc, if_neg (fun e => e ho)]; exact ⟨rfl, rfl⟩
    rw [if_pos hc]
    have key := Started.hw (env := env) ho now bus lec
    have q1 : errq (t.hwBusOff env now bus lec) = errq t ∧ (t.hwBusOff env now bus lec).slv.node.rows = t.slv.node.rows := by
      unfold Stack.hwBusOff
      split
      · exact rcError_errq env _ now .boff
      · exact ⟨rfl, rfl⟩
    have q2 : errq ((t.hwBusOff env now bus lec).hwPassive env now bus) = errq t ∧
        ((t.hwBusOff env now bus lec).hwPassive env now bus).slv.node.rows = t.slv.node.rows := by
      generalize t.hwBusOff env now bus lec = y at q1 ⊢
      unfold Stack.hwPassive
      split
      · obtain ⟨a, b⟩ := rcError_errq env { y with slv := { y.slv with link := (Slave.drvMode env.toEnv y.slv.link .listen).1 } } now .ewrn
        exact ⟨a.trans q1.1, b.trans q1.2⟩
      · exact q1
    generalize (t.hwBusOff env now bus lec).hwPassive env now bus = y at key q2 ⊢
    rcases key with ⟨k1, k2⟩ | ⟨cause, k1, k2, k3, i, b, n, k4⟩
    · rw [if_neg (fun e => e (by rw [k1]; exact ho))]; exact q2
    · have hy : y.rc.state = .on := by rw [k4]
      rw [if_pos (by rw [hy]; decide)]
      have hpe : y.rc.pending = .lec := by rw [k4]
      have hb0 : y.rc.bit0 = 0 := by rw [k4]
      rcases rcProcess_node env y now y.rc.pending lec with e | ⟨c, w, e⟩
      · exact ⟨(congrArg Node.errq e).trans q2.1, (congrArg Node.rows e).trans q2.2⟩
      · rw [hpe] at w
        cases w with
        | suMsg h => rw [hy] at h; cases h
        | suTime h => rw [hy] at h; cases h
        | msg h hm => cases hm
        | noErr h hm => cases hm
        | bit0 h hl hb => rw [hb0] at hb; exact absurd hb (by decide)
        | undef h hl hm => cases hm
  · have ho : ¬ t.rc.state = .off := fun e => not_searching e hs
    rw [if_neg (c := (bus ≠ .active ∨ lec ≠ .none) ∧ t.rc.state = .off) (fun e => ho e.2), if_pos ho] at he ⊢
    exact fin t (he hs)

/-- **C108** is false of the code for a search at startup that is ended by a frame before the first switch: the frame shows
that the rate of the controller is right, but neither is an error reported, nor is the application told the rate
(compare C50). -/
theorem C108_counterexample_first_rate : ∃ s, (boot exMem exInfo).run exA exFirst = some s ∧ ¬ Searching s ∧
    exA.sysErr = true ∧ s.slv.link.mode = .operational ∧ s.slv.link.hwRate = 250 ∧ (errq s).getCount = 0 := by
  have h : (match (boot exMem exInfo).run exA exFirst with
    | some s => decide (¬ Searching s ∧ exA.sysErr = true ∧ s.slv.link.mode = .operational ∧ s.slv.link.hwRate = 250 ∧
        (errq s).getCount = 0)
    | none => false) = true := by decide +kernel
  cases hr : (boot exMem exInfo).run exA exFirst with
  | none => rw [hr] at h; cases h
  | some s => rw [hr] at h; exact ⟨s, rfl, of_decide_eq_true h⟩

/-- C108: an online search that ends at 500 kbit/s; the error is 0x5058 and it is the only one. -/
example : ∃ s, run exA (boot exMem exInfo) (exOn ++ exFound) = some s ∧ Searching s ∧ ¬ Searching (s.process exA 905 .active .none) ∧
    (∀ k, exA.modeOk k = true) ∧ ¬ Silence s ∧ s.rc.suStop.isSome = true ∧ s.rc.onStop.isSome = true ∧
    (errq s).getCount = 0 ∧ ((errq (s.process exA 905 .active .none)).get exA.qSize).2 = (E.ok, .entry (firstNr s) 0x5058#16 1) ∧
    ((errq (s.process exA 905 .active .none)).get exA.qSize).1.getCount = 0 := by
  have h : (match run exA (boot exMem exInfo) (exOn ++ exFound) with
    | some s => decide (Searching s ∧ ¬ Searching (s.process exA 905 .active .none) ∧
        ¬ (s.rc.state = .startup ∧ s.rc.pending ≠ .msg) ∧ s.rc.suStop.isSome = true ∧ s.rc.onStop.isSome = true ∧
        (errq s).getCount = 0 ∧ ((errq (s.process exA 905 .active .none)).get exA.qSize).2 = (E.ok, .entry (firstNr s) 0x5058#16 1) ∧
        ((errq (s.process exA 905 .active .none)).get exA.qSize).1.getCount = 0)
    | none => false) = true := by decide +kernel
  cases hr : run exA (boot exMem exInfo) (exOn ++ exFound) with
  | none => rw [hr] at h; cases h
  | some s =>
    rw [hr] at h
    obtain ⟨a, b, c, d⟩ := of_decide_eq_true h
    exact ⟨s, rfl, a, b, fun _ => rfl, c, d⟩

end Stack
end LiCan
