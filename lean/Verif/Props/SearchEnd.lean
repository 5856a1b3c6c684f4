import Verif.Model.SearchEnd
import Verif.Lemmas.SearchIrq
import Verif.Props.Ignore
/-! # Frames that arrive while a search is being ended (C144) -/
namespace LiCan
namespace Spec

/-- the values of the tick counter at the steps of the background so far -/
def goes : List EEv → List Nat
  | [] => []
  | .go now :: is => now :: goes is
  | _ :: is => goes is

/-- A frame at the tick `now` is ignored: the background has done the steps `ts`; `old`: the end of the search before this one.
The first two steps lead to the end of the search, the fourth takes its time, the fifth puts it down. -/
def unheard (env : AEnv) (opt : Bool) (old : Nat) (ts : List Nat) (now : Nat) : Prop :=
  ts.length < 2 ∨ opt = true ∧ now < env.ms2t (((if ts.length < 5 then old else env.t2ms (ts.getD 3 0)) + 20) % 4294967296)

instance (env : AEnv) (opt : Bool) (old : Nat) (ts : List Nat) (now : Nat) : Decidable (unheard env opt old ts now) := by
  unfold unheard; infer_instance

/-- all frames of `es` are ignored, if the background has done the steps `ts` before -/
def allUnheard (env : AEnv) (opt : Bool) (old : Nat) : List Nat → List EEv → Prop
  | _, [] => True
  | ts, .go now :: is => allUnheard env opt old (ts ++ [now]) is
  | ts, .rx now .. :: is => unheard env opt old ts now ∧ allUnheard env opt old ts is

end Spec

namespace Ending
open Spec
open Node (exMem exEnv)

variable {env : AEnv} {opt : Bool}

/-- where the background is, and what the interrupt can read -/
def At (env : AEnv) (old : Nat) (ts : List Nat) (e : Ending) : Prop :=
  match ts with
  | [] => e.pc = .closed ∧ e.s.rc.state ≠ .off ∧ e.s.rc.backTime = old
  | [_] => e.pc = .opened ∧ e.s.rc.state ≠ .off ∧ e.s.rc.backTime = old
  | [_, _] => e.pc = .off ∧ e.s.rc.state = .off ∧ e.s.rc.backTime = old
  | [_, _, _] => e.pc = .told ∧ e.s.rc.state = .off ∧ e.s.rc.backTime = old
  | [_, _, _, t] => e.pc = .clocked t ∧ e.s.rc.state = .off ∧ e.s.rc.backTime = old
  | _ :: _ :: _ :: t :: _ :: _ => e.pc = .done ∧ e.s.rc.state = .off ∧ e.s.rc.backTime = env.t2ms t

theorem open_rc (env : AEnv) (s : Stack) : (s.rcOpen env).1.rc = { s.rc with process := false } := by
  unfold Stack.rcOpen
  dsimp only
  split <;> rfl

theorem At.go {old : Nat} {ts : List Nat} {e : Ending} (h : At env old ts e) (now : Nat) :
    At env old (ts ++ [now]) (e.go env now) := by
  match ts with
  | [] =>
    obtain ⟨h1, h2, h3⟩ := h
    unfold Ending.go; rw [h1]
    exact ⟨rfl, by dsimp only; rw [open_rc]; exact h2, by dsimp only; rw [open_rc]; exact h3⟩
  | [_] =>
    obtain ⟨h1, h2, h3⟩ := h
    unfold Ending.go; rw [h1]
    refine ⟨rfl, rfl, ?_⟩
    dsimp only [Stack.rcClose]
    cases e.ok <;> exact h3
  | [_, _] =>
    obtain ⟨h1, h2, h3⟩ := h
    unfold Ending.go; rw [h1]
    have hk : (if e.ok = true then e.s.rcDone env e.baud else e.s).rc = e.s.rc := by
      cases e.ok
      · rfl
      · exact (Stack.rcDone_spec env e.s e.baud).1.1
    exact ⟨rfl, by dsimp only; rw [hk]; exact h2, by dsimp only; rw [hk]; exact h3⟩
  | [_, _, _] =>
    obtain ⟨h1, h2, h3⟩ := h
    unfold Ending.go; rw [h1]
    exact ⟨rfl, h2, h3⟩
  | [_, _, _, t] =>
    obtain ⟨h1, h2, h3⟩ := h
    unfold Ending.go; rw [h1]
    exact ⟨rfl, h2, rfl⟩
  | _ :: _ :: _ :: t :: _ :: _ =>
    obtain ⟨h1, h2, h3⟩ := h
    unfold Ending.go; rw [h1]
    exact ⟨h1, h2, h3⟩

theorem At.same {old : Nat} {ts : List Nat} {e : Ending} (h : At env old ts e) {s : Stack}
    (h1 : s.rc.state = e.s.rc.state) (h2 : s.rc.backTime = e.s.rc.backTime) : At env old ts { e with s := s } := by
  match ts with
  | [] | [_] | [_, _] | [_, _, _] | [_, _, _, t] | _ :: _ :: _ :: t :: _ :: _ =>
    obtain ⟨a, b, c⟩ := h
    exact ⟨a, by dsimp only; rw [h1]; exact b, by dsimp only; rw [h2]; exact c⟩

/-- one frame -/
theorem At.frame {old : Nat} {ts : List Nat} {e : Ending} (h : At env old ts e) (now obj dlc id : Nat) (ext : Bool)
    (data : List Byte) :
    e.step env opt (.rx now obj dlc id ext data) =
      if unheard env opt old ts now then some { e with s := e.s.setR fun c => { c with pending := .msg } }
      else (e.s.rx env now obj dlc id ext data).map fun s => { e with s := s } := by
  have busy : e.s.rc.state ≠ .off → e.step env opt (.rx now obj dlc id ext data) =
      some { e with s := e.s.setR fun c => { c with pending := .msg } } := by
    intro k
    have k' : (e.s.setR fun c => { c with pending := .msg }).rc.state ≠ .off := k
    unfold Ending.step Stack.rxI Stack.rx
    dsimp only
    rw [if_pos k', if_pos k', ite_self]
    rfl
  have idle : e.s.rc.state = .off → e.step env opt (.rx now obj dlc id ext data) =
      if opt = true ∧ now < env.ms2t (u32 (e.s.rc.backTime + 20)) then
        some { e with s := e.s.setR fun c => { c with pending := .msg } }
      else (e.s.rx env now obj dlc id ext data).map fun s => { e with s := s } := by
    intro k
    unfold Ending.step Stack.rxI
    dsimp only
    rw [if_neg (show ¬ (e.s.setR fun c => { c with pending := .msg }).rc.state ≠ .off from fun h => h k)]
    cases opt
    · rw [if_neg (by decide), if_neg (by simp)]
    · rw [if_pos rfl]
      by_cases hn : now < env.ms2t (u32 (e.s.rc.backTime + 20))
      · rw [if_pos (c := true = true ∧ _) ⟨rfl, hn⟩]
        exact congrArg (Option.map _) (if_pos hn)
      · rw [if_neg (c := true = true ∧ _) (fun h => hn h.2)]
        exact congrArg (Option.map _) (if_neg hn)
  have same : ∀ {p q : Prop} [Decidable p] [Decidable q] (x y : Option Ending), (p ↔ q) →
      (if p then x else y) = if q then x else y := by
    intro p q _ _ x y hpq
    by_cases h : p
    · rw [if_pos h, if_pos (hpq.1 h)]
    · rw [if_neg h, if_neg (fun k => h (hpq.2 k))]
  match ts with
  | [] => exact (busy h.2.1).trans (if_pos (show unheard env opt old [] now from .inl (by decide : (0 : Nat) < 2))).symm
  | [_] => exact (busy h.2.1).trans (if_pos (show unheard env opt old [_] now from .inl (by decide : (1 : Nat) < 2))).symm
  | [_, _] | [_, _, _] | [_, _, _, t] =>
    rw [idle h.2.1, h.2.2]
    exact same _ _ ⟨fun k => .inr k, fun k => k.elim (fun k => absurd k (by dsimp only [List.length]; omega)) fun k => k⟩
  | _ :: _ :: _ :: t :: _ :: r =>
    rw [idle h.2.1, h.2.2]
    have e5 : ¬ (r.length + 1 + 1 + 1 + 1 + 1 < 5) := by omega
    refine same _ _ ⟨fun k => .inr ?_, fun k => k.elim (fun k => absurd k (by dsimp only [List.length]; omega)) fun k => ?_⟩
    · dsimp only [List.length]; rw [if_neg e5]; exact k
    · dsimp only [List.length] at k; rw [if_neg e5] at k; exact k

theorem At.rx {old : Nat} {ts : List Nat} {e e' : Ending} (h : At env old ts e) {now obj dlc id : Nat} {ext : Bool}
    {data : List Byte} (hs : e.step env opt (.rx now obj dlc id ext data) = some e') : At env old ts e' := by
  rw [h.frame] at hs
  split at hs
  · injection hs with hs
    rw [← hs]; exact h.same rfl rfl
  · rw [Option.map_eq_some_iff] at hs
    obtain ⟨s, hs, rfl⟩ := hs
    obtain ⟨r, p, a, b, c, d, -, k⟩ := Stack.other_rc (i := .rx now obj dlc id ext data) hs
      (fun _ _ _ e => nomatch e) (fun _ e => nomatch e)
    exact h.same (by rw [k]) (by rw [k])

theorem At.run {old : Nat} (es : List EEv) : ∀ {ts : List Nat} {e e' : Ending}, At env old ts e → e.run env opt es = some e' →
    At env old (ts ++ goes es) e' := by
  induction es with
  | nil => intro ts e e' h hr; injection hr with hr; rw [← hr, goes, List.append_nil]; exact h
  | cons i es ih =>
    intro ts e e' h hr
    simp only [Ending.run, Option.bind_eq_some_iff] at hr
    obtain ⟨e1, h1, h2⟩ := hr
    cases i with
    | go now =>
      injection h1 with h1
      have := ih (h.go now) (h1 ▸ h2)
      rw [List.append_assoc] at this
      exact this
    | rx now obj dlc id ext data => exact ih (h.rx h1) h2

theorem at_start {s : Stack} (hs : Searching s) : At env s.rc.backTime [] { s := s } :=
  ⟨rfl, (by rcases hs with h | h | h <;> (show s.rc.state ≠ .off; rw [h]; nofun)), rfl⟩

/-- C144, model against model: the five steps without a frame between them are `can_reconnect_off` as the other models have it;
the tick counter is read in the fourth. -/
theorem C144_steps (env : AEnv) (opt : Bool) (s : Stack) (a b c t d : Nat) :
    (run env opt { s := s } [.go a, .go b, .go c, .go t, .go d]).map (fun e => (e.s, e.pc)) = some (s.rcOff env t, .done) := by
  have key : ∀ r : Stack × Err,
      ((if decide (r.2 = E.ok) = true then (r.1.rcClose (decide (r.2 = E.ok))).rcDone env s.rc.back
        else r.1.rcClose (decide (r.2 = E.ok))).setR fun c => { c with backTime := env.t2ms t }) =
      ((if r.2 = E.ok then
          ((if r.2 = E.ok then { r.1 with lcsa := .running } else r.1).setR fun c => { c with state := .off, nr := u16 (c.nr + 1) }).rcDone
            env s.rc.back
        else (if r.2 = E.ok then { r.1 with lcsa := .running } else r.1).setR fun c => { c with state := .off, nr := u16 (c.nr + 1) }).setR
        fun c => { c with backTime := env.t2ms t }) := by
    intro r
    unfold Stack.rcClose
    by_cases h : r.2 = E.ok
    · rw [decide_eq_true h]
      simp only [if_true, if_pos h]
    · rw [decide_eq_false h]
      simp only [if_neg h]
      rfl
  have := key (s.rcOpen env)
  exact congrArg (fun x => some (x, EPc.done)) this

/-- C144, exactly: whatever arrives at whatever moments, the next frame is ignored exactly as `unheard` says: always before the
second step (the store of CAN_RECONNECT_STATE_OFF); from there to the fifth step exactly within 20 ms of the end of the search
BEFORE this one, and only with the option; after the fifth step exactly within 20 ms of the end of this one.  Otherwise it is
served as in the middle of normal operation. -/
theorem C144_frame_iff (s : Stack) (hs : Searching s) (es : List EEv) (e : Ending) (hr : run env opt { s := s } es = some e)
    (now obj dlc id : Nat) (ext : Bool) (data : List Byte) :
    e.step env opt (.rx now obj dlc id ext data) =
      if unheard env opt s.rc.backTime (goes es) now then some { e with s := e.s.setR fun c => { c with pending := .msg } }
      else (e.s.rx env now obj dlc id ext data).map fun s => { e with s := s } :=
  (At.run es (at_start hs) hr).frame now obj dlc id ext data

/-! ## Endings whose frames are all ignored -/

/-- the interrupt has only written its flag -/
def pend (e : Ending) (p : Pending) : Ending := { e with s := e.s.pend p }

theorem open_pend (env : AEnv) (s : Stack) (p : Pending) :
    (s.pend p).rcOpen env = ((s.rcOpen env).1.pend p, (s.rcOpen env).2) := by
  unfold Stack.rcOpen
  dsimp only
  rw [show (((s.pend p).setR fun c => { c with process := false }).nodeMode env .stopped).1 =
    ((((s.setR fun c => { c with process := false }).nodeMode env .stopped).1).pend p) from rfl, Stack.pend_baud,
    show (s.pend p).rc.back = s.rc.back from rfl]
  split
  · rfl
  · rfl

theorem go_pend (env : AEnv) (e : Ending) (p : Pending) (now : Nat) : (e.pend p).go env now = (e.go env now).pend p := by
  obtain ⟨s, pc, b, ok⟩ := e
  unfold go pend
  cases pc with
  | closed =>
    dsimp only
    rw [open_pend]
    rfl
  | opened =>
    dsimp only [Stack.rcClose]
    cases ok <;> rfl
  | off =>
    dsimp only
    cases ok
    · rfl
    · rw [if_pos rfl, if_pos rfl, Stack.rcDone_pend]
  | told => rfl
  | clocked t => rfl
  | done => rfl

theorem pend_pend (e : Ending) (p q : Pending) : (e.pend p).pend q = e.pend q := rfl
theorem pend_self (e : Ending) : e.pend e.s.rc.pending = e := rfl

/-- the steps of the background alone -/
def gos (env : AEnv) (e : Ending) : List Nat → Ending
  | [] => e
  | t :: ts => gos env (e.go env t) ts

theorem gos_pend (env : AEnv) (ts : List Nat) : ∀ (e : Ending) (p : Pending), gos env (e.pend p) ts = (gos env e ts).pend p := by
  induction ts with
  | nil => intro e p; rfl
  | cons t ts ih => intro e p; rw [gos, gos, go_pend, ih]

theorem run_unheard {old : Nat} (es : List EEv) : ∀ {ts : List Nat} {e : Ending}, At env old ts e →
    allUnheard env opt old ts es → ∃ p, e.run env opt es = some ((gos env e (goes es)).pend p) := by
  induction es with
  | nil => intro ts e h _; exact ⟨e.s.rc.pending, rfl⟩
  | cons i es ih =>
    intro ts e h hd
    cases i with
    | go now =>
      obtain ⟨p, hp⟩ := ih (h.go now) hd
      exact ⟨p, hp⟩
    | rx now obj dlc id ext data =>
      have hf := h.frame (opt := opt) now obj dlc id ext data
      rw [if_pos hd.1] at hf
      obtain ⟨p, hp⟩ := ih (h.rx hf) hd.2
      refine ⟨p, ?_⟩
      rw [run, hf]
      refine hp.trans ?_
      rw [show ({ e with s := e.s.setR fun c => { c with pending := .msg } } : Ending) = e.pend .msg from rfl, gos_pend, pend_pend]
      rfl

/-- what holds of the claim C144: no frame arrives between the second and the fifth step, and the frames after the fifth are
within 20 ms of the time the fourth step took.  Before the second step frames may arrive at will. -/
def calm (env : AEnv) : List Nat → List EEv → Prop
  | _, [] => True
  | ts, .go now :: is => calm env (ts ++ [now]) is
  | ts, .rx now .. :: is =>
    (ts.length < 2 ∨ 5 ≤ ts.length ∧ now < env.ms2t ((env.t2ms (ts.getD 3 0) + 20) % 4294967296)) ∧ calm env ts is

theorem calm_unheard {old : Nat} (es : List EEv) : ∀ {ts : List Nat}, calm env ts es → allUnheard env true old ts es := by
  induction es with
  | nil => intro ts _; exact trivial
  | cons i es ih =>
    intro ts h
    cases i with
    | go now => exact ih (ts := ts ++ [now]) h
    | rx now obj dlc id ext data =>
      refine ⟨?_, ih h.2⟩
      rcases h.1 with k | ⟨k1, k2⟩
      · exact .inl k
      · refine .inr ⟨rfl, ?_⟩
        rw [if_neg (by omega)]
        exact k2

/-- after the fifth step the background does nothing more -/
theorem gos_done (env : AEnv) (ts : List Nat) : ∀ e : Ending, e.pc = .done → gos env e ts = e := by
  induction ts with
  | nil => intro e _; rfl
  | cons t ts ih =>
    intro e h
    have : e.go env t = e := by unfold go; rw [h]
    rw [gos, this, ih e h]

/-- C144, as far as it holds: with the option, if no frame arrives between the store of CAN_RECONNECT_STATE_OFF and that of the
end time, then all the frames from before the end of the search to 20 ms after it have no effect: the result is that of
`can_reconnect_off` without any frame, but for the flag that a message was seen.  Missing: frames between the two stores. -/
theorem C144_silent_partial (s : Stack) (hs : Searching s) (es : List EEv) (a b c t d : Nat) (ts : List Nat)
    (hg : goes es = a :: b :: c :: t :: d :: ts) (hc : calm env [] es) :
    ∃ p, (run env true { s := s } es).map (fun e => e.s) = some ((s.rcOff env t).setR fun r => { r with pending := p }) := by
  obtain ⟨p, hp⟩ := run_unheard (opt := true) es (at_start (env := env) hs) (calm_unheard es hc)
  refine ⟨p, ?_⟩
  rw [hp, hg]
  have h5 := C144_steps env true s a b c t d
  have e5 : run env true { s := s } [.go a, .go b, .go c, .go t, .go d] = some (gos env { s := s } [a, b, c, t, d]) := rfl
  rw [e5] at h5
  injection h5 with h5
  have hd : (gos env { s := s } [a, b, c, t, d]).pc = .done := (Prod.mk.inj h5).2
  have hss : (gos env { s := s } [a, b, c, t, d]).s = s.rcOff env t := (Prod.mk.inj h5).1
  have : gos env { s := s } (a :: b :: c :: t :: d :: ts) = gos env (gos env { s := s } [a, b, c, t, d]) ts := rfl
  rw [this, gos_done env ts _ hd]
  show some ((gos env { s := s } [a, b, c, t, d]).s.pend p) = _
  rw [hss]
  rfl

/-! ## Cases -/

open Stack

/-- the node of the examples, listening for traffic since the tick 300; there was none, the search is about to end with the rate 250 -/
def exLast : Stack := (((boot exMem exInfo).run exA (exSetup ++ [.start 300])).getD (boot exMem exInfo)).setR
  fun c => { c with cause := .noTraffic, back := 250 }

/-- a process request at the tick `t` -/
def exReq (t : Nat) : EEv := .rx t 0 0 0x001 false [0, 0, 0, 0, 0, 0, 0, 0]

/-- C144: frames before the second step and 19 ms after the end: nothing is sent -/
example : Searching exLast ∧
    calm exA [] [exReq 990, .go 991, exReq 992, .go 993, .go 994, .go 995, .go 996, exReq 1014] ∧
    ((run exA true { s := exLast } [exReq 990, .go 991, exReq 992, .go 993, .go 994, .go 995, .go 996, exReq 1014]).map fun e =>
      ((exFrames e.s).length, decide (Searching e.s), exApp e.s)) = some (0, false, [.suStart 22, .suStop 23 250]) := by
  refine ⟨.inl (by decide +kernel), ⟨.inl (by decide), .inl (by decide), .inr ⟨by decide, by decide +kernel⟩, trivial⟩, by decide +kernel⟩

/-- C144 is false: with the option, a process request between the two stores is answered at once, before the application has
been told that the search is over; another, 15 ms later, is ignored. -/
theorem C144_counterexample :
    Searching exLast ∧
    ((run exA true { s := exLast } [.go 991, .go 993]).map fun e => ((exFrames e.s).length, exApp e.s)) = some (0, [.suStart 22]) ∧
    ((run exA true { s := exLast } [.go 991, .go 993, exReq 994]).map fun e => ((exFrames e.s).length, exApp e.s)) =
      some (5, [.suStart 22]) ∧
    ((run exA true { s := exLast } [.go 991, .go 993, exReq 994, .go 995, .go 996, .go 997, exReq 1009]).map fun e =>
      ((exFrames e.s).length, exApp e.s)) = some (5, [.suStart 22, .suStop 23 250]) :=
  ⟨.inl (by decide +kernel), by decide +kernel, by decide +kernel, by decide +kernel⟩

end Ending
end LiCan
