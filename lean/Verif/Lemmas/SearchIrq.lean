import Verif.Model.SearchIrq
import Verif.Lemmas.Recon
/-!
# The steps of Model/SearchIrq.lean against the whole functions
-/
namespace LiCan
open Spec

namespace Stack

/-- what the receive interrupt writes -/
def pend (s : Stack) (p : Pending) : Stack := s.setR fun c => { c with pending := p }

/-- the two steps are `li_can_slv_reconnect_on_main_node_online` -/
theorem rcError_steps (env : AEnv) (s : Stack) (now : Nat) (cause : RCause) :
    s.rcError env now cause =
      if s.rc.state = .off ∧ s.lcsa ≠ .stopped then (s.rcErrorA env cause).rcOn env now false else s := rfl

theorem pend_baud (env : AEnv) (s : Stack) (p : Pending) (b : Nat) :
    (s.pend p).baudRate env b = ((s.baudRate env b).1.pend p, (s.baudRate env b).2) := rfl

theorem nextBaud_pend (env : AEnv) (s : Stack) (p : Pending) (now : Nat) :
    (s.pend p).nextBaud env now = (s.nextBaud env now).pend p := by
  unfold nextBaud
  dsimp only
  rw [show ((s.pend p).nodeMode env .stopped).1 = ((s.nodeMode env .stopped).1).pend p from rfl, pend_baud]
  rw [show (s.pend p).rc.idx = s.rc.idx from rfl]
  generalize (if s.rc.idx < 3 then s.rc.idx + 1 else 0) = i
  dsimp only
  generalize (s.nodeMode env .stopped).1.baudRate env (rcTab.getD i 0) = r
  by_cases h : r.2 = E.ok
  · rw [if_pos h, if_pos h]
    rfl
  · rw [if_neg h, if_neg h]
    rfl

theorem rcOn_pend (env : AEnv) (s : Stack) (p : Pending) (now : Nat) (first : Bool) :
    (s.pend p).rcOn env now first = (s.rcOn env now first).pend p := by
  unfold rcOn
  cases first
  · dsimp only
    rw [if_neg (by decide), if_neg (by decide)]
    have e := nextBaud_pend env ({ s with lcsa := .reconnect }.setR fun c => { c with bit0 := 0 }) p now
    rw [show (({ s.pend p with lcsa := .reconnect } : Stack).setR fun c => { c with bit0 := 0 }) =
      (({ s with lcsa := .reconnect } : Stack).setR fun c => { c with bit0 := 0 }).pend p from rfl, e]
    rfl
  · rfl

theorem report_pend (env : AEnv) (s : Stack) (p : Pending) (e : Option Err) :
    (s.pend p).reportUnaware env e = (s.reportUnaware env e).pend p := by
  unfold reportUnaware
  cases e with
  | none => rfl
  | some e =>
    dsimp only
    split <;> rfl

theorem notify_pend (s : Stack) (p : Pending) (f : Option Nat) (c : Nat → ACall) :
    (s.pend p).notify f c = (s.notify f c).pend p := by
  cases f <;> rfl

theorem rcDone_pend (env : AEnv) (s : Stack) (p : Pending) (b : Nat) :
    (s.pend p).rcDone env b = (s.rcDone env b).pend p := by
  unfold rcDone
  rw [show (s.pend p).rc.cause = s.rc.cause from rfl, show (s.pend p).rc.suStop = s.rc.suStop from rfl,
    show (s.pend p).rc.onStop = s.rc.onStop from rfl]
  have k : ∀ (l : LState) (e : Option Err) (f : Option Nat) (c : Nat → ACall),
      (({ s.pend p with lcsa := l }.reportUnaware env e).notify f c) =
        (({ s with lcsa := l }.reportUnaware env e).notify f c).pend p := by
    intro l e f c
    rw [← notify_pend, ← report_pend]
    rfl
  cases s.rc.cause with
  | startup => exact k _ _ _ _
  | ewrn => exact k _ _ _ _
  | boff => exact k _ _ _ _
  | noTraffic => exact notify_pend { s with lcsa := .init } p _ _
  | download => rfl

theorem rcOff_pend (env : AEnv) (s : Stack) (p : Pending) (now : Nat) :
    (s.pend p).rcOff env now = (s.rcOff env now).pend p := by
  unfold rcOff
  dsimp only
  rw [show (((s.pend p).setR fun c => { c with process := false }).nodeMode env .stopped).1 =
    ((((s.setR fun c => { c with process := false }).nodeMode env .stopped).1).pend p) from rfl, pend_baud,
    show (s.pend p).rc.back = s.rc.back from rfl]
  dsimp only
  generalize ((s.setR fun c => { c with process := false }).nodeMode env .stopped).1.baudRate env s.rc.back = r
  have q : (if r.2 = E.ok then (r.1.pend p).nodeMode env .operational else (r.1.pend p, r.2)) =
      ((if r.2 = E.ok then r.1.nodeMode env .operational else r).1.pend p,
        (if r.2 = E.ok then r.1.nodeMode env .operational else r).2) := by
    split <;> rfl
  rw [q]
  generalize (if r.2 = E.ok then r.1.nodeMode env .operational else r) = w
  dsimp only
  by_cases hw : w.2 = E.ok
  · rw [if_pos hw, if_pos hw]
    rw [if_pos hw, if_pos hw]
    have e := rcDone_pend env ({ w.1 with lcsa := .running }.setR fun c => { c with state := .off, nr := u16 (c.nr + 1) }) p s.rc.back
    rw [show (({ w.1.pend p with lcsa := .running } : Stack).setR fun c => { c with state := .off, nr := u16 (c.nr + 1) }) =
      (({ w.1 with lcsa := .running } : Stack).setR fun c => { c with state := .off, nr := u16 (c.nr + 1) }).pend p from rfl, e]
    rfl
  · rw [if_neg hw, if_neg hw, if_neg hw, if_neg hw]
    rfl

theorem rcSwitch_pend (env : AEnv) (s : Stack) (p : Pending) (now : Nat) :
    (s.pend p).rcSwitch env now = (s.rcSwitch env now).pend p := by
  unfold rcSwitch
  rw [show (s.pend p).rc.next = s.rc.next from rfl]
  split
  · exact congrArg (fun t : Stack => t.setR fun c => { c with bit0 := 0, idle := 0, state := .idle }) (nextBaud_pend env s p now)
  · rfl

/-- The search does not look at the variable: writing it before or after is the same. -/
theorem rcProcess_pend (env : AEnv) (s : Stack) (p : Pending) (now : Nat) (intid : Pending) (lec : Lec) :
    (s.pend p).rcProcess env now intid lec = (s.rcProcess env now intid lec).pend p := by
  unfold rcProcess
  rw [show (s.pend p).rc.process = s.rc.process from rfl, show (s.pend p).rc.state = s.rc.state from rfl]
  split
  · rfl
  cases s.rc.state with
  | startup =>
    dsimp only
    split
    · exact rcOff_pend env (s.setR fun c => { c with cause := .startup }) p now
    rw [show (s.pend p).rc.time = s.rc.time from rfl]
    split
    · exact rcOff_pend env (s.setR fun c => { c with cause := .noTraffic, back := s.slv.link.startup }) p now
    split
    · exact rcOn_pend env (s.setR fun c => { c with cause := .startup, state := .on }) p now false
    rw [show (s.pend p).rc.next = s.rc.next from rfl]
    split
    · exact nextBaud_pend env s p now
    · rfl
  | on =>
    dsimp only
    split
    · exact rcOff_pend env s p now
    split
    · exact rcSwitch_pend env s p now
    have bad := rcSwitch_pend env (s.setR fun c => { c with bit0 := 0 }) p now
    cases lec with
    | none => exact rcOff_pend env s p now
    | bit0 =>
      dsimp only
      rw [show ((s.pend p).setR fun c => { c with bit0 := u16 (c.bit0 + 1) }).rc.bit0 =
        (s.setR fun c => { c with bit0 := u16 (c.bit0 + 1) }).rc.bit0 from rfl]
      split
      · exact rcOff_pend env (s.setR fun c => { c with bit0 := u16 (c.bit0 + 1) }) p now
      · rfl
    | undef =>
      dsimp only
      split
      · exact rcOff_pend env s p now
      · rfl
    | stuff => exact bad
    | form => exact bad
    | ack => exact bad
    | bit1 => exact bad
    | crc => exact bad
  | idle =>
    dsimp only
    rw [show ((s.pend p).setR fun c => { c with idle := u16 (c.idle + 1) }).rc.idle =
      (s.setR fun c => { c with idle := u16 (c.idle + 1) }).rc.idle from rfl]
    split <;> rfl
  | off => rfl
  | deactivated => rfl

end Stack
end LiCan
