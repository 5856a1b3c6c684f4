import Verif.Model.Ignore
import Verif.Props.State
/-! # Frames after the end of a search, with the option to ignore them for a time -/
namespace LiCan

namespace Spec

/-- When the last search ended, in milliseconds of the tick counter: the time of the call of `li_can_slv_process` before which
the node searched and after which it did not; `d` if there was none. -/
def lastEnd (env : AEnv) : Stack → Nat → List SIn → Nat
  | _, d, [] => d
  | s, d, i :: is => match s.stepI env i with
    | none => d
    | some s' => lastEnd env s' (match i with
        | .process now _ _ => if Searching s ∧ ¬ Searching s' then env.t2ms now else d
        | _ => d) is

end Spec

namespace Stack
open Spec
open Node (exMem exEnv)

variable {env : AEnv}

/-- what the search keeps -/
theorem turn_time {s s' : Stack} {now : Nat} {intid : Pending} {lec : Lec} (t : Turn env now intid lec s s') (hs : Searching s) :
    s'.rc.backTime = if Searching s' then s.rc.backTime else env.t2ms now := by
  cases t with
  | ended c w e =>
    have h := off_of_turn_ended e
    rw [if_neg (not_searching h), e, (rcOff_spec env (s.setR fun _ => c) now).1]
  | switched st c b k hst hrc hm hl hw hss hn hlc hlog =>
    have : Searching s' := by
      unfold Searching
      rw [hrc]
      rcases hst with ⟨-, ⟨e, -⟩ | ⟨e, -⟩⟩ | ⟨-, e, -⟩ <;> rw [e]
      · exact .inl rfl
      · exact .inr (.inl rfl)
      · exact .inr (.inr rfl)
    rw [if_pos this, hrc]
  | same st b k hst hk e =>
    subst e
    have : Searching (s.setR fun c => { c with state := st, bit0 := b, idle := k }) := by
      show st = .startup ∨ st = .on ∨ st = .idle
      rcases hst with e | ⟨-, e⟩
      · rw [← e]; exact hs
      · exact .inr (.inl e)
    rw [if_pos this]
    rfl

theorem process_time {s : Stack} (h : Srch s) (now : Nat) (bus : BusState) (lec : Lec) :
    (s.process env now bus lec).rc.backTime =
      if Searching s ∧ ¬ Searching (s.process env now bus lec) then env.t2ms now else s.rc.backTime := by
  obtain ⟨p, hp⟩ := Slave.trigger_eq env.toEnv s.slv now
  have hk : Keep s { s with slv := { s.slv with sync := { s.slv.sync with periode := p } } } := ⟨rfl, rfl⟩
  unfold Stack.process
  rw [hp]
  dsimp only
  generalize ({ s with slv := { s.slv with sync := { s.slv.sync with periode := p } } } : Stack) = t at hk ⊢
  have ht := h.rc hk.1
  have k2 := Keep.processTx env (t.hwError env now bus lec) now
  have e1 : Searching s ↔ Searching t := by unfold Searching; rw [hk.1]
  generalize (Stack.processTx env (t.hwError env now bus lec) now).1 = w at k2 ⊢
  have e2 : Searching w ↔ Searching (t.hwError env now bus lec) := by unfold Searching; rw [k2.1]
  rw [k2.1, ← hk.1]
  simp only [e1, e2]
  clear e1 e2 k2 w hk hp h
  rcases ht.proc with ho | ⟨hs, hpr⟩
  · rw [if_neg (fun e => not_searching ho e.1)]
    unfold Stack.hwError
    dsimp only
    by_cases hc : (bus ≠ .active ∨ lec ≠ .none) ∧ t.rc.state = .off
    · rw [if_pos hc]
      have key := Started.hw (env := env) ho now bus lec
      generalize (t.hwBusOff env now bus lec).hwPassive env now bus = y at key ⊢
      rcases key with ⟨k1, k2⟩ | ⟨cause, k1, k2, k3, i, b, n, k4⟩
      · rw [if_neg (fun e => e (by rw [k1]; exact ho)), k1]
      · have hy : y.rc.state = .on := by rw [k4]
        rw [if_pos (by rw [hy]; decide)]
        have hys : Searching y := .inr (.inl hy)
        have hT := rcProcess_turn env y now y.rc.pending lec hys (by rw [k4])
        generalize y.rcProcess env now y.rc.pending lec = u at hT ⊢
        have hpe : y.rc.pending = .lec := by rw [k4]
        have hb0 : y.rc.bit0 = 0 := by rw [k4]
        have e0 : y.rc.backTime = t.rc.backTime := by rw [k4]
        rw [← e0]
        cases hT with
        | ended c w e =>
          rw [hpe] at w
          cases w with
          | suMsg h => rw [hy] at h; cases h
          | suTime h => rw [hy] at h; cases h
          | msg h hm => cases hm
          | noErr h hm => cases hm
          | bit0 h hl hb => rw [hb0] at hb; exact absurd hb (by decide)
          | undef h hl hm => cases hm
        | switched st c b k hst hrc hm hl hw hss hn hlc hlog => rw [hrc]
        | same st b k hst hk e => subst e; rfl
    · rw [if_neg hc, if_neg (fun e => e ho)]
  · have ho : ¬ t.rc.state = .off := fun e => not_searching e hs
    unfold Stack.hwError
    dsimp only
    rw [if_neg (c := (bus ≠ .active ∨ lec ≠ .none) ∧ t.rc.state = .off) (fun e => ho e.2), if_pos ho]
    have hT := rcProcess_turn env t now t.rc.pending lec hs hpr
    rw [turn_time hT hs]
    by_cases he : Searching (t.rcProcess env now t.rc.pending lec)
    · rw [if_pos he, if_neg (fun e => e.2 he)]
    · rw [if_neg he, if_pos ⟨hs, he⟩]

theorem start_time (env : AEnv) (s : Stack) (now : Nat) : (s.start env now).1.rc.backTime = s.rc.backTime := by
  unfold Stack.start
  have key : ∀ r : Stack × Err,
      ((if r.2 = E.ok then ({ r.1.startAck env with lcsa := .running }, E.ok) else r) : Stack × Err).1.rc = r.1.rc := by
    intro r
    split
    · exact (startAck_keep env r.1).1
    · rfl
  rw [key]
  split
  · dsimp only
    split <;> rfl
  · dsimp only
    show (Stack.rcStartup env _ now).rc.backTime = _
    unfold Stack.rcStartup
    split
    · unfold Stack.rcOn
      dsimp only
      rw [if_pos rfl]
      show (Stack.notify _ _ _).rc.backTime = _
      rw [(notify_keep _ _ _).1]
      rfl
    · rfl

theorem stepI_cases {s s' : Stack} {i : SIn} (h : s.stepI env i = some s') :
    s.step env i = some s' ∨ isRx i = true ∧ s' = s.setR fun c => { c with pending := .msg } := by
  cases i with
  | rx now obj dlc id ext data =>
    simp only [stepI, rxI] at h
    split at h
    · injection h with h; exact .inr ⟨rfl, h.symm⟩
    · split at h
      · injection h with h; exact .inr ⟨rfl, h.symm⟩
      · exact .inl h
  | _ => exact .inl h

theorem Srch.stepI {s s' : Stack} {i : SIn} (h : Srch s) (hs : s.stepI env i = some s') : Srch s' := by
  rcases stepI_cases hs with hs | ⟨-, rfl⟩
  · exact h.step hs
  · exact (SameRc.phase (r := true) ⟨_, _, _, _, _, .inr ⟨rfl, rfl⟩, rfl⟩).2.1 h

theorem Srch.runI (is : List SIn) : ∀ {s s' : Stack}, Srch s → s.runI env is = some s' → Srch s' := by
  induction is with
  | nil => intro s s' h hr; injection hr with hr; rw [← hr]; exact h
  | cons i is ih =>
    intro s s' h hr
    simp only [Stack.runI, Option.bind_eq_some_iff] at hr
    obtain ⟨s1, h1, h2⟩ := hr
    exact ih (h.stepI h1) h2

theorem time_run (is : List SIn) : ∀ {s s' : Stack}, Srch s → s.runI env is = some s' →
    s'.rc.backTime = lastEnd env s s.rc.backTime is := by
  induction is with
  | nil => intro s s' h hr; injection hr with hr; rw [← hr]; rfl
  | cons i is ih =>
    intro s s' h hr
    simp only [Stack.runI, Option.bind_eq_some_iff] at hr
    obtain ⟨s1, h1, h2⟩ := hr
    rw [ih (h.stepI h1) h2, lastEnd, h1]
    dsimp only
    congr 1
    have other : ∀ {r}, SameRc r s s1 → s1.rc.backTime = s.rc.backTime := by
      rintro r ⟨p, a, b, c, d, -, e⟩; rw [e]
    cases i with
    | process now bus lec =>
      injection h1 with h1
      dsimp only
      rw [← h1]
      exact process_time h now bus lec
    | start now =>
      injection h1 with h1
      rw [← h1]
      exact start_time env s now
    | rx now obj dlc id ext data =>
      rcases stepI_cases h1 with h1 | ⟨-, rfl⟩
      · obtain ⟨r, e⟩ := other_rc h1 (fun _ _ _ e => nomatch e) (fun _ e => nomatch e)
        exact other e
      · rfl
    | _ =>
      rcases stepI_cases h1 with h1 | ⟨k, -⟩
      · obtain ⟨r, e⟩ := other_rc h1 (fun _ _ _ e => nomatch e) (fun _ e => nomatch e)
        exact other e
      · cases k

/-- C113: with the option, a frame received by a node that is not searching is ignored exactly if the tick counter is below
that of the end of the last search (0 if there was none) plus 20 ms; else it is served as without the option. -/
theorem C113_ignored_iff (mem : Nat → List Byte) (info : XInfo) (is : List SIn) (s : Stack)
    (hr : (boot mem info).runI env is = some s) (ho : ¬ Searching s) (now obj dlc id : Nat) (ext : Bool) (data : List Byte) :
    s.stepI env (.rx now obj dlc id ext data) =
      if now < env.ms2t ((lastEnd env (boot mem info) 0 is + 20) % 4294967296)
      then some (s.setR fun c => { c with pending := .msg })
      else s.step env (.rx now obj dlc id ext data) := by
  have h := Srch.runI is (Srch.boot mem info) hr
  have hoff : s.rc.state = .off := by
    rcases h.proc with k | ⟨k, -⟩
    · exact k
    · exact absurd k ho
  have ht := time_run is (Srch.boot mem info) hr
  show s.rxI env now obj dlc id ext data = _
  unfold Stack.rxI
  dsimp only
  rw [if_neg (fun e => e hoff)]
  rw [show (s.setR fun c => { c with pending := .msg }).rc.backTime = lastEnd env (boot mem info) 0 is from ht]
  rfl

/-- a tick is a millisecond -/
def Millis (env : AEnv) : Prop := (∀ t, env.t2ms t = t) ∧ ∀ t, env.ms2t t = t

/-- C113, as far as it holds: with ticks of a millisecond, a search that ended at the tick `t` and no wrap of the tick counter
since, frames are ignored for 20 ms and served after that.  Missing: the wrap. -/
theorem C113_window_partial (hm : Millis env) (mem : Nat → List Byte) (info : XInfo) (is : List SIn) (s : Stack)
    (hr : (boot mem info).runI env is = some s) (ho : ¬ Searching s) (t : Nat) (ht : lastEnd env (boot mem info) 0 is = t)
    (hw : t + 20 < 4294967296) (d obj dlc id : Nat) (ext : Bool) (data : List Byte) :
    s.stepI env (.rx (t + d) obj dlc id ext data) =
      if d < 20 then some (s.setR fun c => { c with pending := .msg }) else s.step env (.rx (t + d) obj dlc id ext data) := by
  rw [C113_ignored_iff mem info is s hr ho, ht, hm.2, Nat.mod_eq_of_lt hw]
  by_cases h : d < 20
  · rw [if_pos h, if_pos (by omega)]
  · rw [if_neg h, if_neg (by omega)]

/-- C113 is false after a wrap of the tick counter: until the counter is again 20 ms beyond the tick at which the last search
ended, whatever is received is ignored: nothing is sent, no application function is called, nothing but a flag changes. -/
theorem C113_deaf (hm : Millis env) (mem : Nat → List Byte) (info : XInfo) (is : List SIn) (s : Stack)
    (hr : (boot mem info).runI env is = some s) (ho : ¬ Searching s)
    (hw : lastEnd env (boot mem info) 0 is + 20 < 4294967296)
    (fs : List SIn) (hf : ∀ i ∈ fs, ∃ now obj dlc id ext data, i = .rx now obj dlc id ext data ∧
      now < lastEnd env (boot mem info) 0 is + 20) :
    ∃ p, s.runI env fs = some (s.setR fun c => { c with pending := p }) := by
  have h := Srch.runI is (Srch.boot mem info) hr
  have hoff : s.rc.state = .off := by
    rcases h.proc with k | ⟨k, -⟩
    · exact k
    · exact absurd k ho
  have ht := time_run is (Srch.boot mem info) hr
  replace ht : s.rc.backTime = lastEnd env (boot mem info) 0 is := ht
  rw [← ht] at hw hf
  clear ht h ho hr
  induction fs generalizing s with
  | nil => exact ⟨s.rc.pending, rfl⟩
  | cons i fs ih =>
    obtain ⟨now, obj, dlc, id, ext, data, rfl, hn⟩ := hf i (List.mem_cons_self ..)
    have e : s.stepI env (.rx now obj dlc id ext data) = some (s.setR fun c => { c with pending := .msg }) := by
      show s.rxI env now obj dlc id ext data = _
      unfold Stack.rxI
      dsimp only
      rw [if_neg (fun e => e hoff), hm.2, if_pos]
      show now < (s.rc.backTime + 20) % 4294967296
      rw [Nat.mod_eq_of_lt hw]; exact hn
    obtain ⟨p, g⟩ := ih (s.setR fun c => { c with pending := .msg }) hw
      (fun i hi => hf i (List.mem_cons_of_mem _ hi)) hoff
    refine ⟨p, ?_⟩
    rw [Stack.runI, e]
    exact g

/-! ## Cases -/

/-- the startup search ends at the tick `t` -/
def exEnds (t : Nat) : List SIn := exSetup ++ [.start (t - 700), .process t .active .none]

/-- a process request at the tick `t` -/
def exAsk (t : Nat) : SIn := .rx t 0 0 0x001 false [0, 0, 0, 0, 0, 0, 0, 0]

/-- C113: a search ended at the tick 1000; a process request after 19 ms is ignored, one after 20 ms answered -/
example : Millis exA ∧
    ((boot exMem exInfo).runI exA (exEnds 1000)).map (fun s => (decide (Searching s), lastEnd exA (boot exMem exInfo) 0 (exEnds 1000),
      (exFrames s).length)) = some (false, 1000, 0) ∧
    ((boot exMem exInfo).runI exA (exEnds 1000 ++ [exAsk 1019])).map (fun s => (exFrames s).length) = some 0 ∧
    ((boot exMem exInfo).runI exA (exEnds 1000 ++ [exAsk 1020])).map (fun s => (exFrames s).length) = some 5 :=
  ⟨⟨fun _ => rfl, fun _ => rfl⟩, by decide +kernel, by decide +kernel, by decide +kernel⟩

/-- C113 is false: a node whose search ended 25 days after the start of the tick counter, later in operation for 25 days more
(it answers at the last tick before the wrap), answers no process request for 25 days after the wrap. -/
theorem C113_counterexample :
    ((boot exMem exInfo).runI exA (exEnds 2160000000 ++ [exAsk 4294967295])).map (fun s => (exFrames s).length) = some 5 ∧
    ∀ ts : List Nat, (∀ t ∈ ts, t < 2160000000) →
      ((boot exMem exInfo).runI exA (exEnds 2160000000 ++ exAsk 4294967295 :: ts.map exAsk)).map
        (fun s => (exFrames s).length) = some 5 := by
  refine ⟨by decide +kernel, fun ts hts => ?_⟩
  have hr : ((boot exMem exInfo).runI exA (exEnds 2160000000 ++ [exAsk 4294967295])).isSome = true := by decide +kernel
  have key : (((boot exMem exInfo).runI exA (exEnds 2160000000 ++ [exAsk 4294967295])).map fun s =>
      (decide (Searching s), (exFrames s).length)) = some (false, 5) := by decide +kernel
  have hl : lastEnd exA (boot exMem exInfo) 0 (exEnds 2160000000 ++ [exAsk 4294967295]) = 2160000000 := by decide +kernel
  have hsplit : ∀ (a b : List SIn) (s : Stack), s.runI exA (a ++ b) = (s.runI exA a).bind fun s1 => s1.runI exA b := by
    intro a b
    induction a with
    | nil => intro s; rfl
    | cons i a ih =>
      intro s
      rw [List.cons_append, Stack.runI, Stack.runI]
      cases s.stepI exA i with
      | none => rfl
      | some s1 => exact ih s1
  cases hs : (boot exMem exInfo).runI exA (exEnds 2160000000 ++ [exAsk 4294967295]) with
  | none => rw [hs] at hr; cases hr
  | some s =>
    rw [hs] at key
    simp only [Option.map_some, Option.some.injEq, Prod.mk.injEq] at key
    obtain ⟨p, g⟩ := C113_deaf (env := exA) ⟨fun _ => rfl, fun _ => rfl⟩ exMem exInfo _ s hs (of_decide_eq_false key.1)
      (by rw [hl]; decide) (ts.map exAsk) (by
        intro i hi
        obtain ⟨t, ht, rfl⟩ := List.mem_map.mp hi
        exact ⟨t, 0, 0, 0x001, false, _, rfl, by rw [hl]; have := hts t ht; omega⟩)
    rw [show exEnds 2160000000 ++ exAsk 4294967295 :: ts.map exAsk =
      (exEnds 2160000000 ++ [exAsk 4294967295]) ++ ts.map exAsk by rw [List.append_assoc]; rfl, hsplit, hs]
    show (s.runI exA (ts.map exAsk)).map _ = _
    rw [g]
    exact congrArg some key.2

/-- C113 is false if the 20 ms reach the wrap: a frame right after the end of the search is served. -/
theorem C113_counterexample_window :
    ((boot exMem exInfo).runI exA (exEnds 4294967290 ++ [exAsk 4294967291])).map (fun s => (exFrames s).length) = some 5 := by
  decide +kernel

end Stack
end LiCan
