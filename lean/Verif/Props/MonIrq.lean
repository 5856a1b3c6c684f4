import Verif.Model.MonIrq
import Verif.Lemmas.MonVerdict
import Verif.Props.MonExample
/-! # C139: a process request that reaches both controllers at the same time is judged once -/
namespace LiCan
namespace Mon
open Node Spec Slave

namespace Spec

/-- the whole request handled by one controller after the other -/
def InTurn (me : MonEnv) (c : Ctl) (now dlc : Nat) (d d' : Mon) : Prop :=
  ∃ d1, request me c now dlc d = some d1 ∧ request me c.other now dlc d1 = some d'

/-- The handler of `c` begins in `d`, is interrupted at the place `p` by the handler of the other controller, and comes to its end in `d'`. -/
def Nested (me : MonEnv) (c : Ctl) (now dlc : Nat) (p : Cpc) (d d' : Mon) : Prop :=
  ∃ k e w l, (Nest.start c d).go me c now dlc k = some ⟨e, some p⟩ ∧ (⟨e, some p⟩ : Nest).irq me c now dlc = some w ∧
    w.go me c now dlc l = some ⟨d', none⟩

/-- both controllers have received the request of the period before -/
def BothSeen (d : Mon) : Prop := d.s.sync.prFlag = 0xFFFF ∧ d.m.prFlag = 0xFFFF

/-- the request has been noted for the main controller, that of the monitor has been lost -/
def MonLost (d : Mon) : Prop := d.s.sync.prFlag = 0xFFFF ∧ d.s.sync.prCnt = 1 ∧ d.m.prFlag = 0 ∧ d.m.prCnt = 0

/-- the other way round -/
def MainLost (d : Mon) : Prop := d.m.prFlag = 0xFFFF ∧ d.m.prCnt = 1 ∧ d.s.sync.prFlag = 0 ∧ d.s.sync.prCnt = 0

/-- no verdict has been given: validity of the modules, times of the last valid images -/
def NoVerdict (d d' : Mon) : Prop :=
  d'.s.sync.valid = d.s.sync.valid ∧ d'.s.sync.modTime = d.s.sync.modTime ∧ d'.s.sync.timeValid = d.s.sync.timeValid

/-- a change of anything except verdicts and noted requests, for example by data frames -/
def Else (d d' : Mon) : Prop :=
  NoVerdict d d' ∧ d'.s.sync.prFlag = d.s.sync.prFlag ∧ d'.s.sync.prCnt = d.s.sync.prCnt ∧
  d'.m.prFlag = d.m.prFlag ∧ d'.m.prCnt = d.m.prCnt

end Spec

open Spec

/-- the modules from `i` on, and what follows -/
def judge (me : MonEnv) (now i : Nat) (ok : Bool) (d : Mon) : Mon :=
  let r := (List.range' i (d.s.node.nrMod - i)).foldl (checkStep now) (d, ok)
  if r.2 then
    clearImage me ({ r.1 with s := { r.1.s with sync := { r.1.s.sync with timeValid := now } } }.callOpt r.1.s.sync.allCb)
  else clearImage me r.1

/-- the rest of the check from a place on -/
def fromPc (me : MonEnv) (now : Nat) : Cpc → Mon → Mon
  | .after, d => d
  | .clear, d => clearImage me d
  | .module i ok, d => judge me now i ok d
  | .monCnt, d => if d.m.prCnt ≠ 1 then clearImage me { d with m := { d.m with errPr := u16 (d.m.errPr + 1) } } else judge me now 0 true d
  | .mainCnt, d =>
    if d.s.sync.prCnt ≠ 1 then
      clearImage me { d with s := { d.s with sync := { d.s.sync with errPr := u16 (d.s.sync.errPr + 1) } } }
    else if d.m.prCnt ≠ 1 then clearImage me { d with m := { d.m with errPr := u16 (d.m.errPr + 1) } } else judge me now 0 true d
  | .monDlc, d =>
    if 1 < d.m.prDlc then clearImage me d
    else if d.s.sync.prCnt ≠ 1 then
      clearImage me { d with s := { d.s with sync := { d.s.sync with errPr := u16 (d.s.sync.errPr + 1) } } }
    else if d.m.prCnt ≠ 1 then clearImage me { d with m := { d.m with errPr := u16 (d.m.errPr + 1) } } else judge me now 0 true d
  | .mainDlc, d =>
    if 1 < d.s.sync.prDlc then clearImage me d
    else if 1 < d.m.prDlc then clearImage me d
    else if d.s.sync.prCnt ≠ 1 then
      clearImage me { d with s := { d.s with sync := { d.s.sync with errPr := u16 (d.s.sync.errPr + 1) } } }
    else if d.m.prCnt ≠ 1 then clearImage me { d with m := { d.m with errPr := u16 (d.m.errPr + 1) } } else judge me now 0 true d
  | .monFlag, d => if d.m.prFlag = 0xFFFF then
      if 1 < d.s.sync.prDlc then clearImage me d
      else if 1 < d.m.prDlc then clearImage me d
      else if d.s.sync.prCnt ≠ 1 then
        clearImage me { d with s := { d.s with sync := { d.s.sync with errPr := u16 (d.s.sync.errPr + 1) } } }
      else if d.m.prCnt ≠ 1 then clearImage me { d with m := { d.m with errPr := u16 (d.m.errPr + 1) } } else judge me now 0 true d
    else d
  | .mainFlag, d => checkImage me d now
  | .req, d => checkImage me { d with s := reqRx d.s } now

/-- the rest of the handler -/
def Nest.total (me : MonEnv) (c : Ctl) (now dlc : Nat) (w : Nest) : Option Mon :=
  match w.pc with
  | none => some w.d
  | some p => match c with
    | .main => afterMain me (fromPc me now p w.d) now dlc
    | .mon => some (rxProcessMon (fromPc me now p w.d) now dlc)

theorem judge_zero (me : MonEnv) (now : Nat) (d : Mon) : judge me now 0 true d =
    (let r := (List.range d.s.node.nrMod).foldl (checkStep now) (d, true)
     if r.2 then
       clearImage me ({ r.1 with s := { r.1.s with sync := { r.1.s.sync with timeValid := now } } }.callOpt r.1.s.sync.allCb)
     else clearImage me r.1) := by
  unfold judge
  rw [Nat.sub_zero, List.range_eq_range']

theorem fromPc_mainFlag (me : MonEnv) (now : Nat) (d : Mon) : fromPc me now .mainFlag d =
    if d.s.sync.prFlag = 0xFFFF then fromPc me now .monFlag d else d := by
  simp only [fromPc]
  unfold checkImage
  rw [judge_zero]
  by_cases h1 : d.s.sync.prFlag = 0xFFFF
  · by_cases h2 : d.m.prFlag = 0xFFFF
    · rw [if_pos ⟨h1, h2⟩, if_pos h1, if_pos h2]
    · rw [if_neg (fun h => h2 h.2), if_pos h1, if_neg h2]
  · rw [if_neg (fun h => h1 h.1), if_neg h1]

theorem checkStep_nrMod (now : Nat) (d : Mon) (b : Bool) (i : Nat) : (checkStep now (d, b) i).1.s.node.nrMod = d.s.node.nrMod := by
  obtain ⟨er, a, b', c, e⟩ := checkStep_eq now d b i
  rw [e]; rfl

theorem judge_step (me : MonEnv) (now i : Nat) (ok : Bool) (d : Mon) (h : i < d.s.node.nrMod) :
    judge me now i ok d = judge me now (i + 1) (checkStep now (d, ok) i).2 (checkStep now (d, ok) i).1 := by
  unfold judge
  rw [checkStep_nrMod]
  have e : List.range' i (d.s.node.nrMod - i) = i :: List.range' (i + 1) (d.s.node.nrMod - (i + 1)) := by
    have : d.s.node.nrMod - i = (d.s.node.nrMod - (i + 1)) + 1 := by omega
    rw [this, List.range'_succ]
  rw [e, List.foldl_cons]

theorem judge_end (me : MonEnv) (now i : Nat) (ok : Bool) (d : Mon) (h : ¬ i < d.s.node.nrMod) : judge me now i ok d =
    if ok then clearImage me ({ d with s := { d.s with sync := { d.s.sync with timeValid := now } } }.callOpt d.s.sync.allCb)
    else clearImage me d := by
  unfold judge
  have : d.s.node.nrMod - i = 0 := by omega
  rw [this]
  rfl

variable {me : MonEnv} {c : Ctl} {now dlc : Nat}

/-- A piece of the check leads to another place and leaves the rest as it is. -/
theorem step_cases (p : Cpc) (d : Mon) : p = .after ∨ ∃ q d', (⟨d, some p⟩ : Nest).step me c now dlc = some ⟨d', some q⟩ ∧
    fromPc me now q d' = fromPc me now p d := by
  cases p with
  | req => exact .inr ⟨.mainFlag, _, rfl, rfl⟩
  | mainFlag =>
    refine .inr ⟨_, _, rfl, ?_⟩
    rw [fromPc_mainFlag]
    by_cases h : d.s.sync.prFlag = 0xFFFF
    · rw [if_pos h, if_pos h]
    · rw [if_neg h, if_neg h]; rfl
  | monFlag =>
    refine .inr ⟨_, _, rfl, ?_⟩
    by_cases h : d.m.prFlag = 0xFFFF
    · simp only [fromPc, if_pos h]
    · simp only [fromPc, if_neg h]
  | mainDlc =>
    refine .inr ⟨_, _, rfl, ?_⟩
    by_cases h : 1 < d.s.sync.prDlc
    · simp only [fromPc, if_pos h]
    · simp only [fromPc, if_neg h]
  | monDlc =>
    refine .inr ⟨_, _, rfl, ?_⟩
    by_cases h : 1 < d.m.prDlc
    · simp only [fromPc, if_pos h]
    · simp only [fromPc, if_neg h]
  | mainCnt =>
    by_cases h : d.s.sync.prCnt ≠ 1
    · simp only [Nest.step, if_pos h]
      exact .inr ⟨_, _, rfl, by simp only [fromPc, if_pos h]⟩
    · simp only [Nest.step, if_neg h]
      exact .inr ⟨_, _, rfl, by simp only [fromPc, if_neg h]⟩
  | monCnt =>
    by_cases h : d.m.prCnt ≠ 1
    · simp only [Nest.step, if_pos h]
      exact .inr ⟨_, _, rfl, by simp only [fromPc, if_pos h]⟩
    · simp only [Nest.step, if_neg h]
      exact .inr ⟨_, _, rfl, by simp only [fromPc, if_neg h]⟩
  | module i ok =>
    by_cases h : i < d.s.node.nrMod
    · simp only [Nest.step, if_pos h]
      exact .inr ⟨_, _, rfl, (judge_step me now i ok d h).symm⟩
    · cases ok with
      | true =>
        simp only [Nest.step, if_neg h, if_true]
        exact .inr ⟨_, _, rfl, (judge_end me now i true d h).symm⟩
      | false =>
        simp only [Nest.step, if_neg h]
        exact .inr ⟨_, _, rfl, (judge_end me now i false d h).symm⟩
  | clear => exact .inr ⟨_, _, rfl, rfl⟩
  | after => exact .inl rfl

/-- what a piece does to the rest -/
theorem step_total (w : Nest) : (w.step me c now dlc).bind (Nest.total me c now dlc) = w.total me c now dlc := by
  obtain ⟨d, pc⟩ := w
  cases pc with
  | none => rfl
  | some p =>
    rcases step_cases (me := me) (c := c) (now := now) (dlc := dlc) p d with rfl | ⟨q, d', h1, h2⟩
    · cases c with
      | main =>
        simp only [Nest.step, Nest.total, fromPc]
        cases afterMain me d now dlc <;> rfl
      | mon => rfl
    · rw [h1]
      simp only [Nest.total, Option.bind_some, h2]

theorem go_total (k : Nat) : ∀ w : Nest, (w.go me c now dlc k).bind (Nest.total me c now dlc) = w.total me c now dlc := by
  induction k with
  | zero => intro w; rfl
  | succ k ih =>
    intro w
    rw [← step_total w]
    unfold Nest.go
    cases w.step me c now dlc with
    | none => rfl
    | some w1 => exact ih w1

theorem go_end {k : Nat} {w : Nest} {d' : Mon} (h : w.go me c now dlc k = some ⟨d', none⟩) : w.total me c now dlc = some d' := by
  rw [← go_total k w, h]
  rfl

theorem start_total (d : Mon) : (Nest.start c d).total me c now dlc = request me c now dlc d := by
  cases c with
  | main => rfl
  | mon => rfl

/-- pieces left, at most -/
def Nest.left (w : Nest) : Nat :=
  match w.pc with
  | none => 0
  | some .after => 1
  | some .clear => 2
  | some (.module i _) => 3 + (w.d.s.node.nrMod - i)
  | some .monCnt => 4 + w.d.s.node.nrMod
  | some .mainCnt => 5 + w.d.s.node.nrMod
  | some .monDlc => 6 + w.d.s.node.nrMod
  | some .mainDlc => 7 + w.d.s.node.nrMod
  | some .monFlag => 8 + w.d.s.node.nrMod
  | some .mainFlag => 9 + w.d.s.node.nrMod
  | some .req => 10 + w.d.s.node.nrMod

theorem reqRx_nrMod (s : Slave) : (reqRx s).node.nrMod = s.node.nrMod := by
  have co : ∀ (s : Slave) f, (s.callOpt f).node.nrMod = s.node.nrMod := by
    intro s f; unfold Slave.callOpt; cases f <;> rfl
  have fo : ∀ (l : List Nat) (s : Slave), (l.foldl (fun s i => s.callOpt (s.sync.reqCb i)) s).node.nrMod = s.node.nrMod := by
    intro l
    induction l with
    | nil => intro s; rfl
    | cons i l ih => intro s; rw [List.foldl_cons, ih, co]
  unfold reqRx
  dsimp only
  rw [fo]
  split
  · rfl
  · rw [co]

theorem step_left {w w' : Nest} (h : w.step me c now dlc = some w') : w'.left ≤ w.left - 1 := by
  obtain ⟨d, pc⟩ := w
  cases pc with
  | none => cases h; exact Nat.le_refl _
  | some p =>
    cases p with
    | req =>
      cases h
      show 9 + (reqRx d.s).node.nrMod ≤ 10 + d.s.node.nrMod - 1
      rw [reqRx_nrMod]; omega
    | mainFlag =>
      cases h
      by_cases e : d.s.sync.prFlag = 0xFFFF
      · simp only [Nest.left, if_pos e]; omega
      · simp only [Nest.left, if_neg e]; omega
    | monFlag =>
      cases h
      by_cases e : d.m.prFlag = 0xFFFF
      · simp only [Nest.left, if_pos e]; omega
      · simp only [Nest.left, if_neg e]; omega
    | mainDlc =>
      cases h
      by_cases e : 1 < d.s.sync.prDlc
      · simp only [Nest.left, if_pos e]; omega
      · simp only [Nest.left, if_neg e]; omega
    | monDlc =>
      cases h
      by_cases e : 1 < d.m.prDlc
      · simp only [Nest.left, if_pos e]; omega
      · simp only [Nest.left, if_neg e]; omega
    | mainCnt =>
      by_cases e : d.s.sync.prCnt ≠ 1
      · simp only [Nest.step, if_pos e] at h
        cases h; simp only [Nest.left]; omega
      · simp only [Nest.step, if_neg e] at h
        cases h; simp only [Nest.left]; omega
    | monCnt =>
      by_cases e : d.m.prCnt ≠ 1
      · simp only [Nest.step, if_pos e] at h
        cases h; simp only [Nest.left]; omega
      · simp only [Nest.step, if_neg e] at h
        cases h; simp only [Nest.left]; omega
    | module i ok =>
      by_cases e : i < d.s.node.nrMod
      · simp only [Nest.step, if_pos e] at h
        cases h
        simp only [Nest.left, checkStep_nrMod]; omega
      · cases ok with
        | true => simp only [Nest.step, if_neg e, if_true] at h; cases h; simp only [Nest.left]; omega
        | false => simp only [Nest.step, if_neg e] at h; cases h; simp only [Nest.left]; omega
    | clear => cases h; exact Nat.le_refl _
    | after =>
      cases c with
      | main =>
        simp only [Nest.step] at h
        cases e : afterMain me d now dlc with
        | none => rw [e] at h; cases h
        | some d1 => rw [e] at h; cases h; exact Nat.zero_le _
      | mon => cases h; exact Nat.zero_le _

theorem go_left (k : Nat) : ∀ {w w' : Nest}, w.go me c now dlc k = some w' → w'.left ≤ w.left - k := by
  induction k with
  | zero => intro w w' h; cases h; exact Nat.le_refl _
  | succ k ih =>
    intro w w' h
    unfold Nest.go at h
    cases e : w.step me c now dlc with
    | none => rw [e] at h; cases h
    | some w1 =>
      rw [e] at h
      have h1 := ih h
      have h2 := step_left e
      omega

theorem left_zero {w : Nest} (h : w.left = 0) : w.pc = none := by
  obtain ⟨d, pc⟩ := w
  cases pc with
  | none => rfl
  | some p => cases p <;> simp only [Nest.left] at h <;> omega

/-- enough pieces lead to the end -/
theorem go_enough {w : Nest} {d' : Mon} (h : w.total me c now dlc = some d') : w.go me c now dlc w.left = some ⟨d', none⟩ := by
  have h1 := go_total (me := me) (c := c) (now := now) (dlc := dlc) w.left w
  rw [h] at h1
  cases e : w.go me c now dlc w.left with
  | none => rw [e] at h1; cases h1
  | some w' =>
    have h2 := left_zero (by have := go_left _ e; omega : w'.left = 0)
    obtain ⟨d1, pc⟩ := w'
    cases h2
    rw [e] at h1
    rw [← Option.some.inj (show some d1 = some d' from h1)]

/-! ## Simple facts -/

theorem checkImage_seen (d : Mon) (h : BothSeen d) : (checkImage me d now).s.sync.prFlag = 0 ∧ (checkImage me d now).m.prFlag = 0 := by
  unfold checkImage
  rw [if_pos (c := d.s.sync.prFlag = 0xFFFF ∧ d.m.prFlag = 0xFFFF) h]
  dsimp only
  split
  · exact ⟨rfl, rfl⟩
  · split
    · exact ⟨rfl, rfl⟩
    · split
      · exact ⟨rfl, rfl⟩
      · split
        · exact ⟨rfl, rfl⟩
        · split <;> exact ⟨rfl, rfl⟩

theorem checkImage_main {d : Mon} (h : d.s.sync.prFlag ≠ 0xFFFF) : checkImage me d now = d := by
  unfold checkImage
  rw [if_neg (fun e => h e.1)]

theorem checkImage_mon {d : Mon} (h : d.m.prFlag ≠ 0xFFFF) : checkImage me d now = d := by
  unfold checkImage
  rw [if_neg (fun e => h e.2)]

/-- the places at which the rest of the check clears the image in any case -/
def Cpc.inside : Cpc → Bool
  | .mainDlc | .monDlc | .mainCnt | .monCnt | .module _ _ | .clear => true
  | _ => false

theorem judge_clears (i : Nat) (ok : Bool) (d : Mon) : ∃ d', judge me now i ok d = clearImage me d' := by
  unfold judge
  dsimp only
  split <;> exact ⟨_, rfl⟩

theorem inside_clears {p : Cpc} (h : p.inside = true) (d : Mon) : ∃ d', fromPc me now p d = clearImage me d' := by
  have jz := judge_clears (me := me) (now := now) 0 true d
  cases p with
  | module i ok => exact judge_clears i ok d
  | clear => exact ⟨_, rfl⟩
  | monCnt =>
    simp only [fromPc]
    split
    · exact ⟨_, rfl⟩
    · exact jz
  | mainCnt =>
    simp only [fromPc]
    split
    · exact ⟨_, rfl⟩
    · split
      · exact ⟨_, rfl⟩
      · exact jz
  | monDlc =>
    simp only [fromPc]
    split
    · exact ⟨_, rfl⟩
    · split
      · exact ⟨_, rfl⟩
      · split
        · exact ⟨_, rfl⟩
        · exact jz
  | mainDlc =>
    simp only [fromPc]
    split
    · exact ⟨_, rfl⟩
    · split
      · exact ⟨_, rfl⟩
      · split
        · exact ⟨_, rfl⟩
        · split
          · exact ⟨_, rfl⟩
          · exact jz
  | _ => cases h

theorem afterMain_mon {d d' : Mon} (h : afterMain me d now dlc = some d') :
    afterMain me (rxProcessMon d now dlc) now dlc = some (rxProcessMon d' now dlc) := by
  unfold afterMain at h ⊢
  rw [show (rxProcessMon d now dlc).s = d.s from rfl]
  cases e : d.s.node.sendProcessData me.toEnv with
  | none => rw [e] at h; cases h
  | some n =>
    rw [e] at h
    dsimp only at h ⊢
    split at h
    · next hc => rw [if_pos hc, ← Option.some.inj h]; rfl
    · next hc => rw [if_neg hc, ← Option.some.inj h]; rfl

/-- what the handler of the main controller leaves of the monitor, and what it notes -/
theorem afterMain_facts {d d' : Mon} (h : afterMain me d now dlc = some d') :
    d'.m.prFlag = d.m.prFlag ∧ d'.m.prCnt = d.m.prCnt ∧ d'.s.sync.prFlag = 0xFFFF ∧ d'.s.sync.prCnt = u16 (d.s.sync.prCnt + 1) ∧
    d'.s.sync.valid = d.s.sync.valid ∧ d'.s.sync.modTime = d.s.sync.modTime ∧ d'.s.sync.timeValid = d.s.sync.timeValid := by
  unfold afterMain at h
  cases e : d.s.node.sendProcessData me.toEnv with
  | none => rw [e] at h; cases h
  | some n =>
    rw [e] at h
    dsimp only at h
    split at h
    · rw [← Option.some.inj h]; exact ⟨rfl, rfl, rfl, rfl, rfl, rfl, rfl⟩
    · rw [← Option.some.inj h]; exact ⟨rfl, rfl, rfl, rfl, rfl, rfl, rfl⟩

/-- a nested request in closed form -/
theorem nested_iff {p : Cpc} {d d' : Mon} (h : Nested me c now dlc p d d') :
    ∃ k e e1, (Nest.start c d).go me c now dlc k = some ⟨e, some p⟩ ∧ request me c.other now dlc e = some e1 ∧
      Nest.total me c now dlc ⟨e1, some p⟩ = some d' := by
  obtain ⟨k, e, w, l, h1, h2, h3⟩ := h
  unfold Nest.irq at h2
  cases h4 : request me c.other now dlc e with
  | none =>
    dsimp only at h2
    rw [h4] at h2; cases h2
  | some e1 =>
    dsimp only at h2
    rw [h4] at h2
    refine ⟨k, e, e1, h1, h4, ?_⟩
    rw [← go_end h3, ← Option.some.inj h2]

theorem request_main (d : Mon) : request me .main now dlc d = afterMain me (checkImage me { d with s := reqRx d.s } now) now dlc := rfl

theorem request_mon (d : Mon) : request me .mon now dlc d = some (rxProcessMon (checkImage me d now) now dlc) := rfl

/-- the state in which the check begins -/
def begun (c : Ctl) (d : Mon) : Mon := match c with | .main => { d with s := reqRx d.s } | .mon => d

/-- The invariant of the outer handler: what the state is at a place. -/
def At (me : MonEnv) (c : Ctl) (now : Nat) (d : Mon) (w : Nest) : Prop :=
  match w.pc with
  | none => True
  | some p => fromPc me now p w.d = checkImage me (begun c d) now ∧
    (p = .req → w.d = d ∧ c = .main) ∧ (p = .mainFlag ∨ p = .monFlag → w.d = begun c d) ∧
    (p = .monFlag ∨ p.inside = true → w.d.s.sync.prFlag = 0xFFFF) ∧ (p.inside = true → w.d.m.prFlag = 0xFFFF)

theorem begun_flags (c : Ctl) (d : Mon) : (begun c d).s.sync.prFlag = d.s.sync.prFlag ∧ (begun c d).m.prFlag = d.m.prFlag := by
  cases c with
  | main => unfold begun; dsimp only; rw [reqRx_eq]; exact ⟨rfl, rfl⟩
  | mon => exact ⟨rfl, rfl⟩

theorem callOpt_flags (d : Mon) (f : Option Nat) : (d.callOpt f).s.sync = d.s.sync ∧ (d.callOpt f).m = d.m := by
  unfold Mon.callOpt Slave.callOpt
  cases f <;> exact ⟨rfl, rfl⟩

theorem at_step {d : Mon} {w w' : Nest} (h : At me c now d w) (hs : w.step me c now dlc = some w') : At me c now d w' := by
  obtain ⟨e, pc⟩ := w
  cases pc with
  | none => cases hs; trivial
  | some p =>
    obtain ⟨h1, h2, h3, h4, h5⟩ := h
    rcases step_cases (me := me) (c := c) (now := now) (dlc := dlc) p e with rfl | ⟨q, d', g1, g2⟩
    · cases c with
      | main =>
        simp only [Nest.step] at hs
        cases e1 : afterMain me e now dlc with
        | none => rw [e1] at hs; cases hs
        | some d1 => rw [e1] at hs; cases hs; trivial
      | mon => cases hs; trivial
    · rw [g1] at hs
      obtain rfl := Option.some.inj hs
      refine ⟨g2.trans h1, ?_⟩
      clear h1 g2 hs
      cases p with
      | req =>
        cases g1
        obtain ⟨k1, k2⟩ := h2 rfl
        subst k2
        have k1 : e = d := k1
        subst k1
        exact ⟨nofun, fun _ => rfl, fun h => h.elim nofun nofun, nofun⟩
      | mainFlag =>
        have h3 : e = begun c d := h3 (.inl rfl)
        by_cases k : e.s.sync.prFlag = 0xFFFF
        · simp only [Nest.step, if_pos k] at g1
          cases g1
          exact ⟨nofun, fun _ => h3, fun _ => k, nofun⟩
        · simp only [Nest.step, if_neg k] at g1
          cases g1
          exact ⟨nofun, fun h => h.elim nofun nofun, fun h => h.elim nofun nofun, nofun⟩
      | monFlag =>
        have h4 : e.s.sync.prFlag = 0xFFFF := h4 (.inl rfl)
        by_cases k : e.m.prFlag = 0xFFFF
        · simp only [Nest.step, if_pos k] at g1
          cases g1
          exact ⟨nofun, fun h => h.elim nofun nofun, fun _ => h4, fun _ => k⟩
        · simp only [Nest.step, if_neg k] at g1
          cases g1
          exact ⟨nofun, fun h => h.elim nofun nofun, fun h => h.elim nofun nofun, nofun⟩
      | mainDlc =>
        have h4 : e.s.sync.prFlag = 0xFFFF := h4 (.inr rfl)
        have h5 : e.m.prFlag = 0xFFFF := h5 rfl
        cases g1
        refine ⟨?_, ?_, fun _ => h4, fun _ => h5⟩
        · split <;> nofun
        · split <;> exact fun h => h.elim nofun nofun
      | monDlc =>
        have h4 : e.s.sync.prFlag = 0xFFFF := h4 (.inr rfl)
        have h5 : e.m.prFlag = 0xFFFF := h5 rfl
        cases g1
        refine ⟨?_, ?_, fun _ => h4, fun _ => h5⟩
        · split <;> nofun
        · split <;> exact fun h => h.elim nofun nofun
      | mainCnt =>
        have h4 : e.s.sync.prFlag = 0xFFFF := h4 (.inr rfl)
        have h5 : e.m.prFlag = 0xFFFF := h5 rfl
        by_cases k : e.s.sync.prCnt ≠ 1
        · simp only [Nest.step, if_pos k] at g1
          cases g1
          exact ⟨nofun, fun h => h.elim nofun nofun, fun _ => h4, fun _ => h5⟩
        · simp only [Nest.step, if_neg k] at g1
          cases g1
          exact ⟨nofun, fun h => h.elim nofun nofun, fun _ => h4, fun _ => h5⟩
      | monCnt =>
        have h4 : e.s.sync.prFlag = 0xFFFF := h4 (.inr rfl)
        have h5 : e.m.prFlag = 0xFFFF := h5 rfl
        by_cases k : e.m.prCnt ≠ 1
        · simp only [Nest.step, if_pos k] at g1
          cases g1
          exact ⟨nofun, fun h => h.elim nofun nofun, fun _ => h4, fun _ => h5⟩
        · simp only [Nest.step, if_neg k] at g1
          cases g1
          exact ⟨nofun, fun h => h.elim nofun nofun, fun _ => h4, fun _ => h5⟩
      | module i ok =>
        have k4 : e.s.sync.prFlag = 0xFFFF := h4 (.inr rfl)
        have k5 : e.m.prFlag = 0xFFFF := h5 rfl
        by_cases k : i < e.s.node.nrMod
        · simp only [Nest.step, if_pos k] at g1
          cases g1
          obtain ⟨er, a, b', c, e1⟩ := checkStep_eq now e ok i
          refine ⟨nofun, fun h => h.elim nofun nofun, fun _ => ?_, fun _ => ?_⟩
          · dsimp only; rw [e1]; exact k4
          · dsimp only; rw [e1]; exact k5
        · cases ok with
          | true =>
            simp only [Nest.step, if_neg k, if_true] at g1
            cases g1
            refine ⟨nofun, fun h => h.elim nofun nofun, fun _ => ?_, fun _ => ?_⟩
            · dsimp only; rw [(callOpt_flags _ _).1]; exact k4
            · dsimp only; rw [(callOpt_flags _ _).2]; exact k5
          | false =>
            simp only [Nest.step, if_neg k] at g1
            cases g1
            exact ⟨nofun, fun h => h.elim nofun nofun, fun _ => k4, fun _ => k5⟩
      | clear =>
        cases g1
        exact ⟨nofun, fun h => h.elim nofun nofun, fun h => h.elim nofun nofun, nofun⟩
      | after => cases c <;> simp only [Nest.step] at g1
                 · cases e1 : afterMain me e now dlc with
                   | none => rw [e1] at g1; cases g1
                   | some d1 => rw [e1] at g1; cases g1
                 · cases g1

theorem at_go (k : Nat) {d : Mon} : ∀ {w w' : Nest}, At me c now d w → w.go me c now dlc k = some w' → At me c now d w' := by
  induction k with
  | zero => intro w w' h hs; cases hs; exact h
  | succ k ih =>
    intro w w' h hs
    unfold Nest.go at hs
    cases e : w.step me c now dlc with
    | none => rw [e] at hs; cases hs
    | some w1 => rw [e] at hs; exact ih (at_step h e) hs

theorem at_start (d : Mon) : At me c now d (Nest.start c d) := by
  cases c with
  | main => exact ⟨rfl, fun _ => ⟨rfl, rfl⟩, fun h => h.elim nofun nofun, fun h => h.elim nofun nofun, nofun⟩
  | mon => exact ⟨rfl, nofun, fun _ => rfl, fun h => h.elim nofun nofun, nofun⟩

/-! ## The property -/

/-- **C139 (steps).**  Without an interruption the pieces do exactly what the handler does, and they come to their end. -/
theorem C139_steps (d d' : Mon) :
    (∃ k, (Nest.start c d).go me c now dlc k = some ⟨d', none⟩) ↔ request me c now dlc d = some d' := by
  constructor
  · rintro ⟨k, h⟩
    rw [← start_total]
    exact go_end h
  · intro h
    rw [← start_total] at h
    exact ⟨_, go_enough h⟩

theorem reqRx_mon (d : Mon) : ({ rxProcessMon d now dlc with s := reqRx (rxProcessMon d now dlc).s } : Mon) =
    rxProcessMon { d with s := reqRx d.s } now dlc := rfl

theorem afterMain_isSome {d : Mon} {d' : Mon} (h : afterMain me (rxProcessMon d now dlc) now dlc = some d') :
    ∃ d1, afterMain me d now dlc = some d1 ∧ d' = rxProcessMon d1 now dlc := by
  cases e : afterMain me d now dlc with
  | none =>
    exfalso
    unfold afterMain at h e
    rw [show (rxProcessMon d now dlc).s = d.s from rfl] at h
    cases e1 : d.s.node.sendProcessData me.toEnv with
    | none => rw [e1] at h; cases h
    | some n =>
      rw [e1] at e
      dsimp only at e
      split at e <;> cases e
  | some d1 =>
    rw [afterMain_mon e] at h
    exact ⟨d1, rfl, (Option.some.inj h).symm⟩

/-- **C139 (partial).**  Both controllers have seen the request of the period before.  If the other controller's interrupt comes before the
check or after it, the result is that of the two handlers one after the other: one verdict, both requests noted.
Missing: the places inside the check, where the claim is false, `C139_window`, `C139_false_alarm`. -/
theorem C139_partial {p : Cpc} {d d' : Mon} (hb : BothSeen d) (h : Nested me c now dlc p d d') :
    (c = .main ∧ p = .req → InTurn me .mon now dlc d d') ∧
    (c = .main ∧ (p = .mainFlag ∨ p = .after) → InTurn me .main now dlc d d') ∧
    (c = .mon ∧ (p = .mainFlag ∨ p = .monFlag) → InTurn me .main now dlc d d') ∧
    (c = .mon ∧ p = .after → InTurn me .mon now dlc d d') := by
  obtain ⟨k, e, e1, h1, h2, h3⟩ := nested_iff h
  obtain ⟨a1, a2, a3, -, -⟩ := at_go k (at_start d) h1
  have bf := begun_flags c d
  have hs : BothSeen (begun c d) := ⟨bf.1.trans hb.1, bf.2.trans hb.2⟩
  obtain ⟨z1, z2⟩ := checkImage_seen (me := me) (now := now) _ hs
  refine ⟨?_, ?_, ?_, ?_⟩
  · rintro ⟨rfl, rfl⟩
    obtain rfl : e = d := (a2 rfl).1
    exact ⟨e1, h2, h3⟩
  · rintro ⟨rfl, hp⟩
    have h2 : e1 = rxProcessMon (checkImage me e now) now dlc := (Option.some.inj h2).symm
    have key : afterMain me e1 now dlc = some d' ∧ checkImage me e now = checkImage me (begun .main d) now := by
      rcases hp with rfl | rfl
      · have a3 : e = begun .main d := a3 (.inl rfl)
        subst a3
        refine ⟨?_, rfl⟩
        have h3 : afterMain me (checkImage me e1 now) now dlc = some d' := h3
        rw [checkImage_main (by rw [h2]; show (checkImage me (begun .main d) now).s.sync.prFlag ≠ _; rw [z1]; decide)] at h3
        exact h3
      · have a1 : e = checkImage me (begun .main d) now := a1
        refine ⟨h3, ?_⟩
        rw [a1, checkImage_main (by rw [z1]; decide)]
    obtain ⟨k1, k2⟩ := key
    rw [h2, k2] at k1
    obtain ⟨d1, g1, g2⟩ := afterMain_isSome k1
    refine ⟨d1, g1, ?_⟩
    show some (rxProcessMon (checkImage me d1 now) now dlc) = some d'
    rw [checkImage_mon (by rw [(afterMain_facts g1).1, z2]; decide), g2]
  · rintro ⟨rfl, hp⟩
    have ee : e = d := a3 hp
    subst ee
    refine ⟨e1, h2, ?_⟩
    rcases hp with rfl | rfl
    · exact h3
    · have h2 : afterMain me (checkImage me (begun .main e) now) now dlc = some e1 := h2
      have bf := begun_flags .main e
      have hs : BothSeen (begun .main e) := ⟨bf.1.trans hb.1, bf.2.trans hb.2⟩
      have z := (checkImage_seen (me := me) (now := now) _ hs).2
      have f : e1.m.prFlag ≠ 0xFFFF := by rw [(afterMain_facts h2).1, z]; decide
      rw [← h3]
      show some (rxProcessMon (checkImage me e1 now) now dlc) = some (rxProcessMon (fromPc me now .monFlag e1) now dlc)
      rw [checkImage_mon f]
      simp only [fromPc, if_neg f]
  · rintro ⟨rfl, rfl⟩
    have a1 : e = checkImage me d now := a1
    have z1 : (checkImage me d now).s.sync.prFlag = 0 := z1
    have z2 : (checkImage me d now).m.prFlag = 0 := z2
    refine ⟨rxProcessMon e now dlc, by rw [a1]; rfl, ?_⟩
    have bz : (begun .main e).s.sync.prFlag ≠ 0xFFFF := by rw [(begun_flags .main e).1, a1, z1]; decide
    have h2 : afterMain me (checkImage me (begun .main e) now) now dlc = some e1 := h2
    rw [checkImage_main bz] at h2
    have h3 : rxProcessMon e1 now dlc = d' := Option.some.inj h3
    show afterMain me (checkImage me (rxProcessMon (begun .main e) now dlc) now) now dlc = some d'
    rw [checkImage_main (by exact bz), afterMain_mon h2, h3]

/-- **C139 (window).**  The other controller's interrupt comes inside the check, i.e. after the first condition of the main controller's
check, or after both of the monitor's: whatever the state, the request the other controller has just noted is forgotten. -/
theorem C139_window {p : Cpc} {d d' : Mon} (h : Nested me c now dlc p d d') :
    (c = .main ∧ (p = .monFlag ∨ p.inside = true) → MonLost d') ∧ (c = .mon ∧ p.inside = true → MainLost d') := by
  obtain ⟨k, e, e1, h1, h2, h3⟩ := nested_iff h
  constructor
  · rintro ⟨rfl, hp⟩
    have h2 : e1 = rxProcessMon (checkImage me e now) now dlc := (Option.some.inj h2).symm
    have key : ∃ x, fromPc me now p e1 = clearImage me x := by
      rcases hp with rfl | hp
      · have f : e1.m.prFlag = 0xFFFF := by rw [h2]; rfl
        have := inside_clears (me := me) (now := now) (p := .mainDlc) rfl e1
        simp only [fromPc, if_pos f] at this ⊢
        exact this
      · exact inside_clears hp e1
    obtain ⟨x, hx⟩ := key
    have h3 : afterMain me (fromPc me now p e1) now dlc = some d' := h3
    rw [hx] at h3
    obtain ⟨g1, g2, g3, g4, -⟩ := afterMain_facts h3
    exact ⟨g3, g4, g1, g2⟩
  · rintro ⟨rfl, hp⟩
    obtain ⟨x, hx⟩ := inside_clears (me := me) (now := now) hp e1
    have h3 : rxProcessMon (fromPc me now p e1) now dlc = d' := Option.some.inj h3
    rw [hx] at h3
    rw [← h3]
    exact ⟨rfl, rfl, rfl, rfl⟩

/-- the tables while the outer handler checks -/
theorem step_rows {p q : Cpc} {e e' : Mon} (h : (⟨e, some p⟩ : Nest).step me c now dlc = some ⟨e', some q⟩) :
    e'.s.node.rows = e.s.node.rows ∧ e'.s.node.nrMod = e.s.node.nrMod := by
  have co : ∀ (d : Mon) (f : Option Nat), (d.callOpt f).s.node.rows = d.s.node.rows ∧ (d.callOpt f).s.node.nrMod = d.s.node.nrMod := by
    intro d f
    unfold Mon.callOpt Slave.callOpt
    cases f <;> exact ⟨rfl, rfl⟩
  cases p with
  | req => cases h; dsimp only; rw [reqRx_eq]; exact ⟨rfl, rfl⟩
  | mainFlag => cases h; exact ⟨rfl, rfl⟩
  | monFlag => cases h; exact ⟨rfl, rfl⟩
  | mainDlc => cases h; exact ⟨rfl, rfl⟩
  | monDlc => cases h; exact ⟨rfl, rfl⟩
  | mainCnt =>
    simp only [Nest.step] at h
    split at h <;> cases h <;> exact ⟨rfl, rfl⟩
  | monCnt =>
    simp only [Nest.step] at h
    split at h <;> cases h <;> exact ⟨rfl, rfl⟩
  | module i ok =>
    simp only [Nest.step] at h
    split at h
    · cases h
      obtain ⟨er, a, b', c, e1⟩ := checkStep_eq now e ok i
      rw [e1]; exact ⟨rfl, rfl⟩
    · split at h
      · cases h; exact co _ _
      · cases h; exact ⟨rfl, rfl⟩
  | clear => cases h; exact ⟨rfl, rfl⟩
  | after =>
    cases c with
    | main =>
      simp only [Nest.step] at h
      cases e1 : afterMain me e now dlc with
      | none => rw [e1] at h; cases h
      | some d1 => rw [e1] at h; cases h
    | mon => cases h

theorem go_rows (k : Nat) : ∀ {p q : Cpc} {e e' : Mon}, (⟨e, some p⟩ : Nest).go me c now dlc k = some ⟨e', some q⟩ →
    e'.s.node.rows = e.s.node.rows ∧ e'.s.node.nrMod = e.s.node.nrMod := by
  induction k with
  | zero => intro p q e e' h; cases h; exact ⟨rfl, rfl⟩
  | succ k ih =>
    intro p q e e' h
    unfold Nest.go at h
    cases hs : (⟨e, some p⟩ : Nest).step me c now dlc with
    | none => rw [hs] at h; cases h
    | some w =>
      rw [hs] at h
      obtain ⟨e2, pc⟩ := w
      cases pc with
      | none =>
        exfalso
        have h : (⟨e2, none⟩ : Nest).go me c now dlc k = some ⟨e', some q⟩ := h
        have : ∀ k, (⟨e2, none⟩ : Nest).go me c now dlc k = some ⟨e2, none⟩ := by
          intro k
          induction k with
          | zero => rfl
          | succ k ih => exact ih
        rw [this] at h
        cases h
      | some p2 =>
        obtain ⟨g1, g2⟩ := step_rows hs
        obtain ⟨g3, g4⟩ := ih h
        exact ⟨g3.trans g1, g4.trans g2⟩

theorem start_rows {k : Nat} {q : Cpc} {d e : Mon} (h : (Nest.start c d).go me c now dlc k = some ⟨e, some q⟩) :
    e.s.node.rows = d.s.node.rows ∧ e.s.node.nrMod = d.s.node.nrMod := by
  cases c with
  | main => exact go_rows k (p := .req) h
  | mon => exact go_rows k (p := .mainFlag) h

/-- what the handler of the main controller leaves of the tables and counters -/
theorem afterMain_rows {d d' : Mon} (h : afterMain me d now dlc = some d') :
    d'.s.node.rows = d.s.node.rows ∧ d'.s.node.nrMod = d.s.node.nrMod ∧ d'.s.sync.cnt = d.s.sync.cnt ∧ d'.m.txCnt = d.m.txCnt := by
  unfold afterMain at h
  cases e : d.s.node.sendProcessData me.toEnv with
  | none => rw [e] at h; cases h
  | some n =>
    rw [e] at h
    have l := Light.sendProcess e
    dsimp only at h
    split at h
    · have l2 := (sendOneError_light me.toEnv (rxProcessMain me.toEnv { d.s with node := n } now dlc).node)
      rw [← Option.some.inj h]
      exact ⟨l2.rows.trans l.rows, l2.nrMod.trans l.nrMod, rfl, rfl⟩
    · rw [← Option.some.inj h]
      exact ⟨l.rows, l.nrMod, rfl, rfl⟩

/-- what a request leaves of the counters of the period -/
theorem request_clears {e e1 : Mon} (hb : BothSeen e) (h : request me c now dlc e = some e1) :
    e1.s.node.rows = e.s.node.rows ∧ e1.s.node.nrMod = e.s.node.nrMod ∧ e1.s.sync.cnt = cleared me.toEnv e.s ∧
    e1.m.txCnt = clearedTx me e := by
  cases c with
  | mon =>
    have h : rxProcessMon (checkImage me e now) now dlc = e1 := Option.some.inj h
    obtain ⟨-, -, -, -, k5, -, k7⟩ := checkImage_clears me e now hb.1 hb.2
    have k := (checkImage_kept me e now).light
    rw [← h]
    exact ⟨k.rows, k.nrMod, k5, k7⟩
  | main =>
    have h : afterMain me (checkImage me (begun .main e) now) now dlc = some e1 := h
    obtain ⟨f1, f2⟩ := begun_flags .main e
    obtain ⟨-, -, -, -, k5, -, k7⟩ := checkImage_clears me (begun .main e) now (f1.trans hb.1) (f2.trans hb.2)
    have k := (checkImage_kept me (begun .main e) now).light
    obtain ⟨g1, g2, g3, g4⟩ := afterMain_rows h
    have r1 : (begun .main e).s.node.rows = e.s.node.rows := by unfold begun; dsimp only; rw [reqRx_eq]
    have r2 : (begun .main e).s.node.nrMod = e.s.node.nrMod := by unfold begun; dsimp only; rw [reqRx_eq]
    have r3 : cleared me.toEnv (begun .main e).s = cleared me.toEnv e.s := by unfold begun cleared; dsimp only; rw [reqRx_eq]
    have r4 : clearedTx me (begun .main e) = clearedTx me e := by unfold begun clearedTx; dsimp only; rw [reqRx_eq]
    exact ⟨g1.trans (k.rows.trans r1), g2.trans (k.nrMod.trans r2), g3.trans (k5.trans r3), g4.trans (k7.trans r4)⟩

theorem judge_valid (i : Nat) (ok : Bool) (d : Mon) {j : Nat} (h1 : i ≤ j) (h2 : j < d.s.node.nrMod) :
    (judge me now i ok d).s.sync.valid j = okM d j := by
  unfold judge
  obtain ⟨v, mt, er, a, b, c, e, hv, -⟩ := checkFold now (List.range' i (d.s.node.nrMod - i)) d ok
  have hj : v j = okM d j := by
    rw [hv, if_pos (List.mem_range'_1.2 ⟨h1, by omega⟩)]
  rw [e]
  dsimp only
  split
  · show (Mon.callOpt _ _).s.sync.valid j = _
    rw [(callOpt_flags _ _).1]
    exact hj
  · exact hj

/-- **C139 (false alarm).**  The other controller's interrupt comes while the modules are being judged.  Every module still to be judged that has
objects switched on is found not valid, whatever was received and transmitted in the period. -/
theorem C139_false_alarm {i j : Nat} {ok : Bool} {d d' : Mon} (h : Nested me c now dlc (.module i ok) d d')
    (h1 : i ≤ j) (h2 : j < d.s.node.nrMod) (h3 : j < me.maxMod)
    (h4 : 0 < (d.s.node.rows j).rxObjSync ∨ 0 < (d.s.node.rows j).txObjSync) : d'.s.sync.valid j = false := by
  obtain ⟨k, e, e1, g1, g2, g3⟩ := nested_iff h
  obtain ⟨-, -, -, a4, a5⟩ := at_go k (at_start d) g1
  obtain ⟨r1, r2⟩ := start_rows g1
  obtain ⟨q1, q2, q3, q4⟩ := request_clears ⟨a4 (.inr rfl), a5 rfl⟩ g2
  have bad : okM e1 j = false := by
    rw [Bool.eq_false_iff]
    intro hk
    obtain ⟨t1, t2⟩ := (okM_iff e1 j).1 hk
    rw [q1, r1] at t1 t2
    rcases h4 with h4 | h4
    · have t := (t2 0 h4).1
      rw [q3] at t
      unfold cleared at t
      rw [if_pos ⟨h3, by rw [r1]; exact h4⟩] at t
      cases t
    · have t := t1 0 h4
      rw [q4] at t
      unfold clearedTx at t
      rw [if_pos ⟨h3, by rw [r1]; exact h4⟩] at t
      cases t
  have v := judge_valid (me := me) (now := now) i ok e1 h1 (by rw [q2, r2]; exact h2)
  rw [bad] at v
  cases c with
  | main =>
    have g3 : afterMain me (judge me now i ok e1) now dlc = some d' := g3
    rw [(afterMain_facts g3).2.2.2.2.1]
    exact v
  | mon =>
    have g3 : rxProcessMon (judge me now i ok e1) now dlc = d' := Option.some.inj g3
    rw [← g3]
    exact v

theorem noVerdict_trans {a b c : Mon} (h : NoVerdict a b) (g : NoVerdict b c) : NoVerdict a c :=
  ⟨g.1.trans h.1, g.2.1.trans h.2.1, g.2.2.trans h.2.2⟩

theorem begun_quiet (d : Mon) : NoVerdict d (begun .main d) ∧ (begun .main d).s.sync.prCnt = d.s.sync.prCnt := by
  unfold begun
  dsimp only
  rw [reqRx_eq]
  exact ⟨⟨rfl, rfl, rfl⟩, rfl⟩

theorem checkImage_twice {d : Mon} (h : d.s.sync.prCnt ≠ 1) : NoVerdict d (checkImage me d now) := by
  unfold checkImage
  split
  · split
    · exact ⟨rfl, rfl, rfl⟩
    · split
      · exact ⟨rfl, rfl, rfl⟩
      · exact ⟨rfl, rfl, rfl⟩
  · exact ⟨rfl, rfl, rfl⟩

/-- **C139 (blind).**  The monitor's request has been forgotten and the next two requests reach the main controller first.  No verdict is given for two
periods, whatever is received and transmitted in them. -/
theorem C139_blind {t2 t3 t4 l2 l3 l4 : Nat} {d d1 d2 d3 d4 d5 d6 : Mon} (h : MonLost d) (e1 : Else d d1)
    (r1 : request me .main t2 l2 d1 = some d2) (e2 : Else d2 d3) (r2 : request me .mon t3 l3 d3 = some d4) (e3 : Else d4 d5)
    (r3 : request me c t4 l4 d5 = some d6) : NoVerdict d d4 ∧ NoVerdict d d6 := by
  obtain ⟨h1, h2, h3, h4⟩ := h
  obtain ⟨x1, x2, x3, x4, x5⟩ := e1
  have q1 := begun_quiet d1
  have f1 := begun_flags .main d1
  have r1 : afterMain me (checkImage me (begun .main d1) t2) t2 l2 = some d2 := r1
  rw [checkImage_mon (by rw [f1.2, x4, h3]; decide)] at r1
  obtain ⟨a1, a2, a3, a4, a5, a6, a7⟩ := afterMain_facts r1
  have n2 : NoVerdict d d2 := noVerdict_trans x1 (noVerdict_trans q1.1 ⟨a5, a6, a7⟩)
  obtain ⟨y1, y2, y3, y4, y5⟩ := e2
  have r2 : rxProcessMon (checkImage me d3 t3) t3 l3 = d4 := Option.some.inj r2
  rw [checkImage_mon (by rw [y4, a1, f1.2, x4, h3]; decide)] at r2
  have n4 : NoVerdict d d4 := noVerdict_trans (noVerdict_trans n2 y1) (by rw [← r2]; exact ⟨rfl, rfl, rfl⟩)
  refine ⟨n4, noVerdict_trans (noVerdict_trans n4 e3.1) ?_⟩
  have c5 : d5.s.sync.prCnt = 2 := by
    rw [e3.2.2.1, ← r2]
    show d3.s.sync.prCnt = 2
    rw [y3, a4, q1.2, x3, h2]
  cases c with
  | main =>
    have r3 : afterMain me (checkImage me (begun .main d5) t4) t4 l4 = some d6 := r3
    have q5 := begun_quiet d5
    obtain ⟨-, -, -, -, b5, b6, b7⟩ := afterMain_facts r3
    exact noVerdict_trans (noVerdict_trans q5.1 (checkImage_twice (me := me) (now := t4) (by rw [q5.2, c5]; decide))) ⟨b5, b6, b7⟩
  | mon =>
    have r3 : rxProcessMon (checkImage me d5 t4) t4 l4 = d6 := Option.some.inj r3
    rw [← r3]
    exact checkImage_twice (by rw [c5]; decide)

/-! ## Examples -/

/-- a complete period of the example device: the requests and all frames on both controllers -/
def exFull : Option Mon := exReady.bind fun d => run exMe d ([rqA 3, rqB 4] ++ exAll)

/-- the handler of `c`, interrupted after `k` pieces -/
def exNest (c : Ctl) (k : Nat) (d : Mon) : Option (Option Cpc × Mon) :=
  ((Nest.start c d).go exMe c 5 0 k).bind fun w => (w.irq exMe c 5 0).bind fun w1 =>
    (w1.go exMe c 5 0 20).bind fun w2 => if w2.pc = none then some (w.pc, w2.d) else none

theorem exNest_nested {c : Ctl} {k : Nat} {p : Cpc} {d d' : Mon} (h : exNest c k d = some (some p, d')) : Nested exMe c 5 0 p d d' := by
  unfold exNest at h
  cases h1 : (Nest.start c d).go exMe c 5 0 k with
  | none => rw [h1] at h; cases h
  | some w =>
    rw [h1] at h
    simp only [Option.bind_some] at h
    cases h2 : w.irq exMe c 5 0 with
    | none => rw [h2] at h; cases h
    | some w1 =>
      rw [h2] at h
      simp only [Option.bind_some] at h
      cases h3 : w1.go exMe c 5 0 20 with
      | none => rw [h3] at h; cases h
      | some w2 =>
        rw [h3] at h
        simp only [Option.bind_some] at h
        obtain ⟨d2, pc2⟩ := w2
        obtain ⟨e, pc⟩ := w
        split at h
        · next hp =>
          have h := Option.some.inj h
          have e1 : pc = some p := congrArg Prod.fst h
          have e2 : d2 = d' := congrArg Prod.snd h
          subst e1 e2
          have hp : pc2 = none := hp
          subst hp
          exact ⟨k, e, w1, 20, h1, h2, h3⟩
        · cases h

def verdictOf (d : Mon) : List Bool := (List.range d.s.node.nrMod).map d.s.sync.valid

def callsMade (d : Mon) : List Nat := d.s.node.log.reverse.filterMap fun e => match e with
  | .call f => some f
  | _ => none

/-- what is computed from a nested request: the place, the verdicts, the requests noted, the calls during the request -/
def exOut (c : Ctl) (k : Nat) : Option (Option Cpc × List Bool × Nat × Nat × List Nat) :=
  exFull.bind fun d => (exNest c k d).map fun r => (r.1, verdictOf r.2, r.2.s.sync.prCnt, r.2.m.prCnt,
    (callsMade r.2).drop (callsMade d).length)

theorem exFull_some : ∃ d, exFull = some d := Option.isSome_iff_exists.1 (by decide +kernel)

/-- reading a computed value -/
theorem exOut_spec {c : Ctl} {k : Nat} {p : Cpc} {v : List Bool} {a b : Nat} {l : List Nat} (h : exOut c k = some (some p, v, a, b, l)) :
    ∃ d d', exFull = some d ∧ Nested exMe c 5 0 p d d' ∧ verdictOf d' = v ∧ d'.s.sync.prCnt = a ∧ d'.m.prCnt = b ∧
      (callsMade d').drop (callsMade d).length = l := by
  obtain ⟨d, hd⟩ := exFull_some
  unfold exOut at h
  rw [hd] at h
  simp only [Option.bind_some] at h
  cases e : exNest c k d with
  | none => rw [e] at h; cases h
  | some r =>
    rw [e] at h
    obtain ⟨p', d'⟩ := r
    have h := Option.some.inj h
    have h1 : p' = some p := congrArg (fun x => x.1) h
    subst h1
    exact ⟨d, d', hd, exNest_nested e, congrArg (fun x => x.2.1) h, congrArg (fun x => x.2.2.1) h, congrArg (fun x => x.2.2.2.1) h,
      congrArg (fun x => x.2.2.2.2) h⟩

theorem exFull_seen {d : Mon} (h : exFull = some d) : BothSeen d ∧ d.s.node.nrMod = 2 ∧
    (d.s.node.rows 0).rxObjSync = 2 ∧ (d.s.node.rows 1).txObjSync = 3 := by
  have : (exFull.map fun d => (d.s.sync.prFlag, d.m.prFlag, d.s.node.nrMod, (d.s.node.rows 0).rxObjSync, (d.s.node.rows 1).txObjSync)) =
      some (0xFFFF, 0xFFFF, 2, 2, 3) := by decide +kernel
  rw [h] at this
  have h1 := Option.some.inj this
  exact ⟨⟨congrArg (fun x => x.1) h1, congrArg (fun x => x.2.1) h1⟩, congrArg (fun x => x.2.2.1) h1, congrArg (fun x => x.2.2.2.1) h1,
    congrArg (fun x => x.2.2.2.2) h1⟩

/-- C139_partial: the places it speaks about are reached, both modules are found valid once, both requests are noted -/
example : (∃ d d', BothSeen d ∧ Nested exMe .main 5 0 .req d d' ∧ verdictOf d' = [true, true] ∧ d'.s.sync.prCnt = 1 ∧ d'.m.prCnt = 1) ∧
    (∃ d d', BothSeen d ∧ Nested exMe .main 5 0 .mainFlag d d' ∧ verdictOf d' = [true, true] ∧ d'.s.sync.prCnt = 1 ∧ d'.m.prCnt = 1) ∧
    (∃ d d', BothSeen d ∧ Nested exMe .main 5 0 .after d d' ∧ verdictOf d' = [true, true] ∧ d'.s.sync.prCnt = 1 ∧ d'.m.prCnt = 1) ∧
    (∃ d d', BothSeen d ∧ Nested exMe .mon 5 0 .monFlag d d' ∧ verdictOf d' = [true, true] ∧ d'.s.sync.prCnt = 1 ∧ d'.m.prCnt = 1) ∧
    (∃ d d', BothSeen d ∧ Nested exMe .mon 5 0 .after d d' ∧ verdictOf d' = [true, true] ∧ d'.s.sync.prCnt = 1 ∧ d'.m.prCnt = 1) := by
  refine ⟨?_, ?_, ?_, ?_, ?_⟩
  · obtain ⟨d, d', h1, h2, h3, h4, h5, -⟩ := exOut_spec (show exOut .main 0 = some (some .req, [true, true], 1, 1, [2, 3, 1, 6]) by decide +kernel)
    exact ⟨d, d', (exFull_seen h1).1, h2, h3, h4, h5⟩
  · obtain ⟨d, d', h1, h2, h3, h4, h5, -⟩ := exOut_spec (show exOut .main 1 = some (some .mainFlag, [true, true], 1, 1, [6, 2, 3, 1]) by decide +kernel)
    exact ⟨d, d', (exFull_seen h1).1, h2, h3, h4, h5⟩
  · obtain ⟨d, d', h1, h2, h3, h4, h5, -⟩ := exOut_spec (show exOut .main 11 = some (some .after, [true, true], 1, 1, [6, 2, 3, 1]) by decide +kernel)
    exact ⟨d, d', (exFull_seen h1).1, h2, h3, h4, h5⟩
  · obtain ⟨d, d', h1, h2, h3, h4, h5, -⟩ := exOut_spec (show exOut .mon 1 = some (some .monFlag, [true, true], 1, 1, [6, 2, 3, 1]) by decide +kernel)
    exact ⟨d, d', (exFull_seen h1).1, h2, h3, h4, h5⟩
  · obtain ⟨d, d', h1, h2, h3, h4, h5, -⟩ := exOut_spec (show exOut .mon 10 = some (some .after, [true, true], 1, 1, [2, 3, 1, 6]) by decide +kernel)
    exact ⟨d, d', (exFull_seen h1).1, h2, h3, h4, h5⟩

/-- **C139 (counterexample: false alarm).**  A device as it may be reached, a complete period on both controllers.  The monitor's interrupt comes
before the main controller's handler judges the first module: both modules are found valid (calls 2, 3 and 1) and then not valid (4 and 5), and the
monitor's request is forgotten. -/
theorem C139_counterexample_alarm : ∃ d0 d d', MReach exMe (true, true) d0 ∧ run exMe d0 ([rqA 3, rqB 4] ++ exAll) = some d ∧
    Nested exMe .main 5 0 (.module 0 true) d d' ∧ verdictOf d' = [false, false] ∧ d'.m.prCnt = 0 ∧
    (callsMade d').drop (callsMade d).length = [6, 2, 3, 1, 4, 5] := by
  obtain ⟨d0, h0, hr⟩ := exReady_reach
  obtain ⟨d, d', h1, h2, h3, -, h5, h6⟩ :=
    exOut_spec (show exOut .main 7 = some (some (.module 0 true), [false, false], 1, 0, [6, 2, 3, 1, 4, 5]) by decide +kernel)
  unfold exFull at h1
  rw [h0, Option.bind_some] at h1
  exact ⟨d0, d, d', hr, h1, h2, h3, h5, h6⟩

/-- **C139 (counterexample: judged twice).**  The same period; the main controller's interrupt comes before the monitor's handler clears the image.  All is
found valid twice, and the main controller's request is forgotten. -/
theorem C139_counterexample_twice : ∃ d0 d d', MReach exMe (true, true) d0 ∧ run exMe d0 ([rqA 3, rqB 4] ++ exAll) = some d ∧
    Nested exMe .mon 5 0 .clear d d' ∧ verdictOf d' = [true, true] ∧ d'.s.sync.prCnt = 0 ∧
    (callsMade d').drop (callsMade d).length = [2, 3, 1, 6, 2, 3, 1] := by
  obtain ⟨d0, h0, hr⟩ := exReady_reach
  obtain ⟨d, d', h1, h2, h3, h4, -, h6⟩ :=
    exOut_spec (show exOut .mon 9 = some (some .clear, [true, true], 0, 1, [2, 3, 1, 6, 2, 3, 1]) by decide +kernel)
  unfold exFull at h1
  rw [h0, Option.bind_some] at h1
  exact ⟨d0, d, d', hr, h1, h2, h3, h4, h6⟩

/-- C139_window and C139_false_alarm: a place inside the check -/
example : ∃ d d', Nested exMe .main 5 0 (.module 1 true) d d' ∧ 1 < d.s.node.nrMod ∧ 0 < (d.s.node.rows 1).txObjSync ∧ MonLost d' ∧
    verdictOf d' = [true, false] := by
  obtain ⟨d, d', h1, h2, h3, -⟩ := exOut_spec (show exOut .main 8 = some (some (.module 1 true), [true, false], 1, 0, [6, 2, 2, 3, 1, 5]) by decide +kernel)
  obtain ⟨-, k2, -, k4⟩ := exFull_seen h1
  exact ⟨d, d', h2, by omega, by omega, (C139_window h2).1 ⟨rfl, .inr rfl⟩, h3⟩

/-- Data frames are among the changes `C139_blind` allows between the requests. -/
theorem C139_frames {d d' : Mon} {t obj n id : Nat} {data : List Byte} :
    (obj ≠ 0 ∧ obj ≠ 2 ∧ obj ≠ 3 → step me d (.main t obj n id data) = some d' → Else d d') ∧
    (obj ≠ 1 → step me d (.mon t obj n id data) = some d' → Else d d') := by
  constructor
  · rintro ⟨h0, h2, h3⟩ h
    have h : handlerMain me d t obj n id data = some d' := h
    rw [handlerMain_eq] at h
    dsimp only at h
    rw [if_neg (by rintro (h | h) <;> omega), if_neg h0] at h
    obtain ⟨-, -, -, -, -, c, hc, -⟩ := dataPart_keeps me.toEnv d.s obj n id data
    rw [← Option.some.inj h]
    refine ⟨⟨?_, ?_, ?_⟩, ?_, ?_, rfl, rfl⟩ <;> dsimp only <;> rw [hc]
  · intro h0 h
    have h : some (handlerMon me d t obj n id data) = some d' := h
    rw [handlerMon_eq] at h
    dsimp only at h
    rw [if_neg h0] at h
    have k1 := monRxPart_kept me d obj n id data
    have k2 := monTxPart_kept me (monRxPart me d obj n id data) obj n id data
    rw [← Option.some.inj h]
    have s := k2.s.trans k1.s
    exact ⟨⟨by rw [s], by rw [s], by rw [s]⟩, by rw [s], by rw [s], k2.prFlag.trans k1.prFlag, k2.prCnt.trans k1.prCnt⟩

/-- C139_blind: the example device after `C139_counterexample_alarm`, two periods with requests on the main controller first -/
example : ∃ d d2 d4 d6, MonLost d ∧ request exMe .main 6 0 d = some d2 ∧ request exMe .mon 6 0 d2 = some d4 ∧
    request exMe .main 7 0 d4 = some d6 ∧ verdictOf d6 = [false, false] := by
  obtain ⟨d1, e1⟩ := exFull_some
  have key : (exFull.bind fun d => (exNest .main 7 d).bind fun r => (request exMe .main 6 0 r.2).bind fun d2 =>
      (request exMe .mon 6 0 d2).bind fun d4 => (request exMe .main 7 0 d4).map fun d6 => (r.1, verdictOf d6)) =
      some (some (.module 0 true), [false, false]) := by decide +kernel
  rw [e1] at key
  simp only [Option.bind_some] at key
  cases g1 : exNest .main 7 d1 with
  | none => rw [g1] at key; cases key
  | some r =>
    rw [g1] at key
    simp only [Option.bind_some] at key
    cases g2 : request exMe .main 6 0 r.2 with
    | none => rw [g2] at key; cases key
    | some d2 =>
      rw [g2] at key
      simp only [Option.bind_some] at key
      cases g3 : request exMe .mon 6 0 d2 with
      | none => rw [g3] at key; cases key
      | some d4 =>
        rw [g3] at key
        simp only [Option.bind_some] at key
        cases g4 : request exMe .main 7 0 d4 with
        | none => rw [g4] at key; cases key
        | some d6 =>
          rw [g4] at key
          have k := Option.some.inj key
          obtain ⟨p, d'⟩ := r
          have k1 : p = some (.module 0 true) := congrArg Prod.fst k
          subst k1
          exact ⟨d', d2, d4, d6, (C139_window (exNest_nested g1)).1 ⟨rfl, .inr rfl⟩, g2, g3, g4, congrArg Prod.snd k⟩

end Mon
end LiCan
