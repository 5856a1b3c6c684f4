import Verif.Lemmas.StackRest
import Verif.Lemmas.StackExample
/-! # C46 persistent transfer info, C47 registrations -/
namespace LiCan
namespace Stack

/-! ## C47 -/

variable {env : AEnv}

theorem Fix.handlerTx (s : Stack) : Fix env s (handlerTx env s) := by
  unfold Stack.handlerTx
  split
  · split
    · simp only
      have h : Fix env s (handleQ env s).1 := by
        unfold handleQ
        simp only
        generalize Node.send env.toEnv s.slv.node (s.q.buf s.q.read) = r
        by_cases h1 : 0 < s.q.state
        · rw [if_pos h1]
          by_cases h2 : r.2 = E.ok
          · rw [if_pos h2]; exact ⟨id, rfl, ⟨rfl, rfl⟩, rfl, rfl, rfl, rfl⟩
          · rw [if_neg h2]; exact ⟨id, rfl, ⟨rfl, rfl⟩, rfl, rfl, rfl, rfl⟩
        · rw [if_neg h1]; exact .refl s
      exact h.trans ⟨id, rfl, ⟨rfl, rfl⟩, rfl, rfl, rfl, rfl⟩
    · exact .refl s
  · exact .refl s

theorem Fix.enqueue (s : Stack) (nr dlc : Nat) (src : List Byte) : Fix env s (s.enqueue env nr dlc src).1 := by
  unfold Stack.enqueue
  split
  · exact .refl s
  · split
    · exact .refl s
    · refine Fix.trans ?_ (Fix.handlerTx _)
      exact ⟨id, rfl, .refl _, rfl, rfl, rfl, rfl⟩

theorem Fix.retry (s : Stack) : Fix env s (s.putcRetry env).1 := by
  unfold putcRetry
  have h := Fix.enqueue (env := env) s s.tnl.own s.tnl.tmp.length s.tnl.tmp
  generalize s.enqueue env s.tnl.own s.tnl.tmp.length s.tnl.tmp = r at h ⊢
  simp only
  split
  · exact h.trans ⟨id, rfl, .refl _, rfl, rfl, rfl, rfl⟩
  · exact h

theorem Fix.putc (s : Stack) (x : Byte) : Fix env s (s.putc env x).1 := by
  unfold Stack.putc
  split
  · exact .refl s
  · split
    · simp only
      split
      · refine Fix.trans ?_ (Fix.retry _)
        exact ⟨id, rfl, .refl _, rfl, rfl, rfl, rfl⟩
      · exact ⟨id, rfl, .refl _, rfl, rfl, rfl, rfl⟩
    · exact .refl s

theorem Fix.flush (s : Stack) (now : Nat) : Fix env s (s.processTx env now).1 := by
  unfold processTx
  split
  · exact .refl s
  · split
    · split
      · have h := Fix.enqueue (env := env) s s.tnl.own s.tnl.tmp.length s.tnl.tmp
        generalize s.enqueue env s.tnl.own s.tnl.tmp.length s.tnl.tmp = r at h ⊢
        simp only
        split
        · exact h.trans ⟨id, rfl, .refl _, rfl, rfl, rfl, rfl⟩
        · exact h
      · exact .refl s
    · exact .refl s

theorem Atoms.fix {k : Kind} {s s' : Stack} (h : Atoms env k s s') (hr : k.reg = false) : Fix env s s' := by
  have no : k.reg = true → False := fun e => by rw [hr] at e; cases e
  induction h with
  | nil => exact .refl _
  | snoc _ k ih =>
    refine ih.trans ?_
    cases k with
    | rest h => exact h.toFix
    | restT h => exact h.toFix
    | enqueue => exact .enqueue _ _ _ _
    | putc => exact .putc _ _
    | retry => exact .retry _
    | flush => exact .flush _ _
    | hnd => exact (no (by assumption)).elim
    | rcCb => exact (no (by assumption)).elim
    | timeCb => exact (no (by assumption)).elim
    | resetCb => exact (no (by assumption)).elim

end Stack

namespace Spec

/-- What an application can register, once each. -/
inductive Slot
  | hnd (h : Hnd) | rc (k : RCb) | time | reset

/-- the function an input asks to register for the slot -/
def Slot.asks : Slot → SIn → Option Nat
  | .hnd h, .hnd k f => if k = h then f else none
  | .rc .onStart, .rcCb .onStart f => f
  | .rc .onStop, .rcCb .onStop f => f
  | .rc .suStart, .rcCb .suStart f => f
  | .rc .suStop, .rcCb .suStop f => f
  | .time, .api (.timeCb f) => f
  | .reset, .api (.resetCb f) => f
  | _, _ => none

/-- the variable of the stack behind the slot -/
def Slot.get (s : Stack) : Slot → Option Nat
  | .hnd h => s.x.hnd h
  | .rc .onStart => s.rc.onStart
  | .rc .onStop => s.rc.onStop
  | .rc .suStart => s.rc.suStart
  | .rc .suStop => s.rc.suStop
  | .time => s.slv.sys.timeCb
  | .reset => s.slv.sys.resetCb

end Spec
namespace Stack
open Spec

variable {env : AEnv}

theorem Fix.slot {s s' : Stack} (h : Fix env s s') (p : Slot) : p.get s' = p.get s := by
  cases p with
  | hnd k => exact congrFun h.hnd k
  | rc k => cases k with | onStart => exact h.onStart | onStop => exact h.onStop | suStart => exact h.suStart | suStop => exact h.suStop
  | time => exact h.sys.1
  | reset => exact h.sys.2

theorem asks_false {i : SIn} (h : isReg i = false) (p : Slot) : p.asks i = none := by
  cases i with
  | hnd => cases h
  | rcCb => cases h
  | api j => cases j <;> first | (cases p with | rc k => cases k <;> rfl | _ => rfl) | cases h
  | _ => cases p with | rc k => cases k <;> rfl | _ => rfl

theorem setRcCb_slot (s : Stack) (k : RCb) (f : Option Nat) (p : Slot) :
    p.get (s.setRcCb k f) = (p.get s).or (p.asks (.rcCb k f)) := by
  have key : ∀ {a b : Option Nat} {c : Prop} [Decidable c], (c ↔ a = none) → (if c then b else a) = a.or b := by
    intro a b c _ h
    cases a with
    | none => rw [if_pos (h.2 rfl)]; rfl
    | some x => rw [if_neg (fun hc => by cases h.1 hc)]; rfl
  have none_or : ∀ a : Option Nat, a = a.or none := fun a => by cases a <;> rfl
  cases k <;> unfold setRcCb <;> simp only
  · by_cases h : s.rc.onStart = none
    · rw [if_pos h]
      cases p with
      | rc k => cases k <;> first | exact none_or _ | (simp only [Slot.get, Slot.asks, h, setR]; rfl)
      | _ => exact none_or _
    · rw [if_neg h]
      cases p with
      | rc k =>
        cases k <;> first | exact none_or _ | skip
        obtain ⟨x, hx⟩ := Option.ne_none_iff_exists'.1 h
        simp only [Slot.get, Slot.asks, hx]; rfl
      | _ => exact none_or _
  · by_cases h : s.rc.onStop = none
    · rw [if_pos h]
      cases p with
      | rc k => cases k <;> first | exact none_or _ | (simp only [Slot.get, Slot.asks, h, setR]; rfl)
      | _ => exact none_or _
    · rw [if_neg h]
      cases p with
      | rc k =>
        cases k <;> first | exact none_or _ | skip
        obtain ⟨x, hx⟩ := Option.ne_none_iff_exists'.1 h
        simp only [Slot.get, Slot.asks, hx]; rfl
      | _ => exact none_or _
  · by_cases h : s.rc.suStart = none
    · rw [if_pos h]
      cases p with
      | rc k => cases k <;> first | exact none_or _ | (simp only [Slot.get, Slot.asks, h, setR]; rfl)
      | _ => exact none_or _
    · rw [if_neg h]
      cases p with
      | rc k =>
        cases k <;> first | exact none_or _ | skip
        obtain ⟨x, hx⟩ := Option.ne_none_iff_exists'.1 h
        simp only [Slot.get, Slot.asks, hx]; rfl
      | _ => exact none_or _
  · by_cases h : s.rc.suStop = none
    · rw [if_pos h]
      cases p with
      | rc k => cases k <;> first | exact none_or _ | (simp only [Slot.get, Slot.asks, h, setR]; rfl)
      | _ => exact none_or _
    · rw [if_neg h]
      cases p with
      | rc k =>
        cases k <;> first | exact none_or _ | skip
        obtain ⟨x, hx⟩ := Option.ne_none_iff_exists'.1 h
        simp only [Slot.get, Slot.asks, hx]; rfl
      | _ => exact none_or _

theorem setHnd_slot (s : Stack) (k : Hnd) (f : Option Nat) (p : Slot) :
    p.get (s.setHnd k f).1 = (p.get s).or (p.asks (.hnd k f)) := by
  have none_or : ∀ a : Option Nat, a = a.or none := fun a => by cases a <;> rfl
  unfold setHnd
  split
  · next h =>
    cases p with
    | hnd j =>
      simp only [Slot.get, Slot.asks, setX]
      by_cases e : j = k
      · subst e; rw [if_pos rfl, if_pos rfl, h]; rfl
      · rw [if_neg e, if_neg fun e' => e e'.symm]; exact none_or _
    | rc j => cases j <;> exact none_or _
    | _ => exact none_or _
  · next h =>
    cases p with
    | hnd j =>
      simp only [Slot.get, Slot.asks]
      by_cases e : j = k
      · subst e
        obtain ⟨x, hx⟩ := Option.ne_none_iff_exists'.1 h
        rw [hx]; rfl
      · rw [if_neg fun e' => e e'.symm]; exact none_or _
    | rc j => cases j <;> exact none_or _
    | _ => exact none_or _

theorem step_slot {s s' : Stack} {i : SIn} (h : s.step env i = some s') (p : Slot) :
    p.get s' = (p.get s).or (p.asks i) := by
  have none_or : ∀ a : Option Nat, a = a.or none := fun a => by cases a <;> rfl
  cases hr : isReg i with
  | false =>
    rw [((step_atoms h).fix hr).slot p, asks_false hr p]
    exact none_or _
  | true =>
    cases i with
    | hnd k f => injection h with h; subst h; exact setHnd_slot s k f p
    | rcCb k f => injection h with h; subst h; exact setRcCb_slot s k f p
    | api j =>
      cases j with
      | timeCb f =>
        injection h with h; subst h
        show p.get { s with slv := s.slv.setTimeCb f } = _
        unfold Slave.setTimeCb
        split
        · next e =>
          cases p with
          | time => simp only [Slot.get, Slot.asks, e]; rfl
          | rc j => cases j <;> exact none_or _
          | _ => exact none_or _
        · next e =>
          cases p with
          | time =>
            obtain ⟨x, hx⟩ := Option.ne_none_iff_exists'.1 e
            simp only [Slot.get, Slot.asks, hx]; rfl
          | rc j => cases j <;> exact none_or _
          | _ => exact none_or _
      | resetCb f =>
        injection h with h; subst h
        show p.get { s with slv := s.slv.setResetCb f } = _
        unfold Slave.setResetCb
        split
        · next e =>
          cases p with
          | reset => simp only [Slot.get, Slot.asks, e]; rfl
          | rc j => cases j <;> exact none_or _
          | _ => exact none_or _
        · next e =>
          cases p with
          | reset =>
            obtain ⟨x, hx⟩ := Option.ne_none_iff_exists'.1 e
            simp only [Slot.get, Slot.asks, hx]; rfl
          | rc j => cases j <;> exact none_or _
          | _ => exact none_or _
      | _ => cases hr
    | _ => cases hr

theorem run_slot (p : Slot) (is : List SIn) : ∀ {s s' : Stack}, s.run env is = some s' →
    p.get s' = (p.get s).or (is.findSome? p.asks) := by
  induction is with
  | nil => intro s s' h; injection h with h; subst h; cases p.get s <;> rfl
  | cons i is ih =>
    intro s s' h
    simp only [Stack.run, Option.bind_eq_some_iff] at h
    obtain ⟨s1, h1, h2⟩ := h
    rw [ih h2, step_slot h1 p, List.findSome?_cons]
    cases p.get s <;> cases p.asks i <;> rfl

/-- C47.  After any history since the reset - including any number of initialisations, frames, transfers
and baud rate searches - the function behind each handler or callback that can be set once is the first
one the application registered for it. -/
theorem C47_first_registration (env : AEnv) (mem : Nat → List Byte) (info : XInfo) (is : List SIn) (s : Stack)
    (h : run env (boot mem info) is = some s) (p : Slot) : p.get s = is.findSome? p.asks := by
  rw [run_slot p is h]
  have : p.get (boot mem info) = none := by
    cases p with
    | rc k => cases k <;> rfl
    | _ => rfl
  rw [this]; rfl

/-- C47.  A second registration of a transfer handler is refused with an error and changes nothing; a
registered function stays in force whatever happens. -/
theorem C47_refused (env : AEnv) (s : Stack) (k : Hnd) (f : Nat) (g : Option Nat) (h : s.x.hnd k = some f) :
    (s.setHnd k g).1 = s ∧ ((s.setHnd k g).2 = E.dloadAddHandle ∨ (s.setHnd k g).2 = E.uloadAddHandle) ∧
    (s.setHnd k g).2 ≠ E.ok ∧
    ∀ (is : List SIn) (s' : Stack), s.run env is = some s' → s'.x.hnd k = some f := by
  have hn : ¬ s.x.hnd k = none := by rw [h]; exact fun e => by cases e
  unfold setHnd
  rw [if_neg hn]
  refine ⟨rfl, ?_, ?_, ?_⟩
  · cases k <;> first | exact .inl rfl | exact .inr rfl
  · cases k <;> first | exact (by decide : E.dloadAddHandle ≠ E.ok) | exact (by decide : E.uloadAddHandle ≠ E.ok)
  · intro is s' hr
    have := run_slot (.hnd k) is hr
    simp only [Slot.get, h] at this
    exact this

/-- the eight handlers of the example: a second registration for block ends is refused, the first is
called; `exSetup` contains an initialisation -/
example : exS.x.hnd .dlBlock = some 13 ∧ exSetup.findSome? (Slot.asks (.hnd .dlBlock)) = some 13 ∧
    (exS.setHnd .dlBlock (some 99)).2 = E.dloadAddHandle ∧
    ([.rcCb .suStop none, .rcCb .suStop (some 4), .init 125, .rcCb .suStop (some 5)] : List SIn).findSome?
      (Slot.asks (.rc .suStop)) = some 4 := by decide +kernel

/-! ## C46 -/

theorem run_info (is : List SIn) : ∀ {s s' : Stack}, s.run env is = some s' →
    XInfo.Ok env.crc s.info → XInfo.Ok env.crc s'.info := by
  induction is with
  | nil => intro s s' h k; injection h with h; subst h; exact k
  | cons i is ih =>
    intro s s' h k
    simp only [Stack.run, Option.bind_eq_some_iff] at h
    obtain ⟨s1, h1, h2⟩ := h
    refine ih h2 ?_
    have a := step_atoms h1
    cases hr : isReg i with
    | false => exact (a.fix hr).okInfo k
    | true =>
      have e : s1.info = s.info := by
        cases i with
        | hnd c f =>
          injection h1 with h1; subst h1
          unfold setHnd; split <;> rfl
        | rcCb c f =>
          injection h1 with h1; subst h1
          cases c <;> (unfold setRcCb; simp only; split <;> rfl)
        | api j =>
          cases j with
          | timeCb f => injection h1 with h1; subst h1; rfl
          | resetCb f => injection h1 with h1; subst h1; rfl
          | _ => cases hr
        | _ => cases hr
      rw [e]; exact k

theorem init_info (env : AEnv) (s : Stack) (baud : Nat) : XInfo.Ok env.crc (s.init env baud).1.info := by
  unfold Stack.init
  have key : ∀ (s1 : Stack) (v : Slave), XInfo.Ok env.crc s1.info → XInfo.Ok env.crc (s1.setSlv env v).info := by
    intro s1 v h
    unfold Stack.setSlv
    dsimp only
    split
    · exact h
    · exact .update _ _
  refine key _ _ ?_
  have h3 : ∀ s1 : Stack, XInfo.Ok env.crc s1.info → ∀ p : Prop, ∀ [Decidable p],
      XInfo.Ok env.crc (if p then { s1 with lcsa := .download } else s1).info := by
    intro s1 h p _; split <;> exact h
  refine h3 _ ?_ _
  have h2 : ∀ s1 : Stack, XInfo.Ok env.crc s1.info → ∀ p : Prop, ∀ [Decidable p], ∀ n,
      XInfo.Ok env.crc (if p then s1.setNode n else s1).info := by
    intro s1 h p _ n; split <;> exact h
  exact h2 _ (.init env.crc s.info) _ _

/-- C46.  Whatever the memory that survives the reset contained and whatever happened before: once
`lcsa_init` was called, the checksum of the transfer info fits its content after every history. -/
theorem C46_consistent (env : AEnv) (mem : Nat → List Byte) (info : XInfo) (before after : List SIn) (baud : Nat)
    (s : Stack) (h : run env (boot mem info) (before ++ .init baud :: after) = some s) :
    s.info.crc = env.crc s.info.d % 65536 ∧ s.info.checkCrc env.crc = true := by
  have split : ∀ (a : List SIn) (s0 s : Stack), run env s0 (a ++ .init baud :: after) = some s →
      ∃ s1 : Stack, run env (s1.init env baud).1 after = some s := by
    intro a
    induction a with
    | nil =>
      intro s0 s h
      simp only [List.nil_append, Stack.run, Stack.step, Option.bind_some] at h
      exact ⟨s0, h⟩
    | cons i a ih =>
      intro s0 s h
      simp only [List.cons_append, Stack.run, Option.bind_eq_some_iff] at h
      obtain ⟨s1, -, h2⟩ := h
      exact ih s1 s h2
  obtain ⟨s1, h1⟩ := split before _ _ h
  have k : XInfo.Ok env.crc s.info := run_info after h1 (init_info env s1 baud)
  exact ⟨k, by unfold XInfo.checkCrc; exact decide_eq_true k.symm⟩

/-- C46 (`_partial`).  Initialisation reports BAD_CRC exactly if the stored checksum does not fit.  Fitting
content is kept; otherwise mode, component and user bytes get their defaults.  Missing in the claim
"resets it to defaults": the baud rate, see `C46_counterexample`. -/
theorem C46_corrupted_partial (crc : InfoData → Nat) (i : XInfo) :
    (i.crc = crc i.d % 65536 → i.init crc = (i, E.ok)) ∧
    (i.crc ≠ crc i.d % 65536 →
      (i.init crc).2 = E.infoBadCrc ∧ (i.init crc).1.d.mode = 4 ∧
      (i.init crc).1.d.comp.nr = 125 ∧ (i.init crc).1.d.comp.name = List.replicate 8 0 ∧
      (i.init crc).1.d.comp.crc = 0 ∧ (i.init crc).1.d.comp.dlId = 0 ∧ (i.init crc).1.d.comp.index = 0 ∧
      (i.init crc).1.d.user1 = 0 ∧ (i.init crc).1.d.user2 = 0) := by
  unfold XInfo.init XInfo.checkCrc
  refine ⟨fun h => ?_, fun h => ?_⟩
  · rw [if_pos (decide_eq_true h.symm)]
  · rw [if_neg (by rw [decide_eq_true_eq]; exact fun e => h e.symm)]
    exact ⟨rfl, rfl, rfl, rfl, rfl, rfl, rfl, rfl, rfl⟩

/-- C46, counterexample: a corrupted rate of 12345 passes the check after initialisation. -/
theorem C46_counterexample :
    let i : XInfo := ⟨⟨4, { nr := 125 }, 12345, 0, 0⟩, 0⟩
    i.checkCrc exA.crc = false ∧ (i.init exA.crc).2 = E.infoBadCrc ∧ (i.init exA.crc).1.d.baud = 12345 ∧
    (i.init exA.crc).1.checkCrc exA.crc = true := by decide +kernel

/-- C46, how corrupted content is reported: the number is queued as it is.  An error reported the usual
way (C22) would be the message code 0x75000074. -/
example : (((boot Node.exMem ⟨exInfo.d, 7⟩).init exA 125).1.slv.node.errq.getFull exA.qSize).2.2.map (·.msgCode) = some 0x5074#32 ∧
    canMsgCode E.infoBadCrc = 0x75000074#32 := by decide +kernel

/-- fitting and not fitting content -/
example : exInfo.crc = exA.crc exInfo.d % 65536 ∧ (⟨exInfo.d, 7⟩ : XInfo).crc ≠ exA.crc exInfo.d % 65536 ∧
    (run exA (boot Node.exMem ⟨exInfo.d, 7⟩) ([.setState .running] ++ .init 125 :: [.info (.mode 2), .setBaud 500, .init 250])).isSome = true := by
  refine ⟨by decide, by decide, ?_⟩
  decide +kernel

end Stack
end LiCan
