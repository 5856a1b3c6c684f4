import Verif.Model.Tell
import Verif.Props.EndRate
import Verif.Props.NoSearch
/-! # C149: the monitor CPU is told the bit rate the main CPU uses -/
namespace LiCan.Stack
open Spec
open Node (exMem exEnv exOps)

variable {env : AEnv}

/-- a search that has a reason to end ends, and the rate with which it does is told -/
theorem tells_of_why {t : Stack} {now : Nat} {intid : Pending} {lec : Lec} {c : Recon} (hq : t.rc.process = true)
    (w : EndWhy env t now intid lec c) :
    t.rcProcessTells env now intid lec = some c.back ∧ (t.rcProcess env now intid lec).rc.state = .off := by
  have off : ∀ x : Stack, (x.rcOff env now).rc.state = .off := fun x => by rw [(rcOff_spec env x now).1]
  have hn : ¬ t.rc.process = false := by rw [hq]; decide
  unfold rcProcessTells rcProcess
  rw [if_neg hn, if_neg hn]
  cases w with
  | suMsg h hm hc => rw [h]; dsimp only; rw [if_pos hm, if_pos hm, hc]; exact ⟨rfl, off _⟩
  | suTime h hm ht hc => rw [h]; dsimp only; rw [if_neg hm, if_neg hm, if_pos ht, if_pos ht, hc]; exact ⟨rfl, off _⟩
  | msg h hm hc => rw [h]; dsimp only; rw [if_pos hm, if_pos hm, hc]; exact ⟨rfl, off _⟩
  | noErr h hm hl hc =>
    rw [h]; dsimp only; subst hm; subst hl
    simp only [reduceCtorEq, false_and, ↓reduceIte, hc]
    exact ⟨rfl, off _⟩
  | bit0 h hl hb hc =>
    rw [h]; dsimp only; subst hl
    by_cases hm : intid = .msg
    · rw [if_pos hm, if_pos hm, hc]; exact ⟨rfl, off _⟩
    · have hb' : 10 ≤ (t.setR fun c => { c with bit0 := u16 (c.bit0 + 1) }).rc.bit0 := hb
      simp only [hm, reduceCtorEq, and_false, ↓reduceIte, hb, hb', hc]
      exact ⟨rfl, off _⟩
  | undef h hl hm hc =>
    rw [h]; dsimp only; subst hm; subst hl
    simp only [reduceCtorEq, false_and, ↓reduceIte, hc]
    exact ⟨rfl, off _⟩

/-- a rate is told for such a reason only -/
theorem why_of_tells {t : Stack} {now : Nat} {intid : Pending} {lec : Lec} {b : Nat}
    (h : t.rcProcessTells env now intid lec = some b) : t.rc.process = true ∧ ∃ c, EndWhy env t now intid lec c ∧ b = c.back := by
  unfold rcProcessTells at h
  split at h
  · cases h
  · next hq =>
    refine ⟨by revert hq; cases t.rc.process <;> simp, ?_⟩
    split at h
    · next hs =>
      split at h
      · next hm => injection h with h; exact ⟨_, .suMsg hs hm rfl, h.symm⟩
      · next hm =>
        split at h
        · next ht => injection h with h; exact ⟨_, .suTime hs hm ht rfl, h.symm⟩
        · cases h
    · next hs =>
      split at h
      · next hm => injection h with h; exact ⟨_, .msg hs hm rfl, h.symm⟩
      · next hm =>
        split at h
        · cases h
        · next hl =>
          split at h
          · injection h with h
            have : intid = .none := by
              cases intid with
              | none => rfl
              | msg => exact absurd rfl hm
              | lec => exact absurd ⟨rfl, rfl⟩ hl
            exact ⟨_, .noErr hs this rfl rfl, h.symm⟩
          · split at h
            · next hb => injection h with h; exact ⟨_, .bit0 hs rfl hb rfl, h.symm⟩
            · cases h
          · split at h
            · next hi => injection h with h; exact ⟨_, .undef hs rfl hi rfl, h.symm⟩
            · cases h
          · cases h
    · cases h

/-- a search that has just begun tells nothing -/
theorem begun_tells {s t : Stack} (h : Begun0 s t) (now : Nat) (lec : Lec) :
    t.rc.state ≠ .off → t.rcProcessTells env now t.rc.pending lec = none := by
  intro ho
  cases h with
  | not h => exact absurd h ho
  | yes h hp h0 =>
    cases e : t.rcProcessTells env now t.rc.pending lec with
    | none => rfl
    | some b =>
      obtain ⟨-, c, w, -⟩ := why_of_tells e
      cases w with
      | suMsg a => rw [h] at a; cases a
      | suTime a => rw [h] at a; cases a
      | msg a b => rw [hp] at b; cases b
      | noErr a b => rw [hp] at b; cases b
      | bit0 a b x => rw [h0] at x; exact absurd x (by decide)
      | undef a b x => rw [hp] at x; cases x

theorem mid_begun {s t : Stack} (hk : Keep s t) (ho : s.rc.state = .off) (now : Nat) (bus : BusState) (lec : Lec) :
    Begun0 s (t.hwErrorMid env now bus lec) := by
  have h0 : Begun0 s t := .not (by rw [hk.1]; exact ho) (by rw [hk.1]) (by rw [hk.2])
  have hto : t.rc.state = .off := by rw [hk.1]; exact ho
  have hb : Begun0 s (t.hwBusOff env now bus lec) := by
    unfold Stack.hwBusOff
    split
    · refine Begun0.error ?_ _ _
      refine .not hto (by rw [nodeMode_rc, nodeMode_rc, hk.1]) ?_
      rw [nodeMode_link, nodeMode_link, (Slave.setMode_mode ..).2.2.2.2.1, (Slave.setMode_mode ..).2.2.2.2.1, hk.2]
    · exact h0
  unfold hwErrorMid
  split
  · generalize t.hwBusOff env now bus lec = y at hb
    have hd : (Slave.drvMode env.toEnv y.slv.link .listen).1.stored = y.slv.link.stored ∧
        (Slave.drvMode env.toEnv y.slv.link .listen).1.storedN = y.slv.link.storedN := by
      unfold Slave.drvMode; split <;> exact ⟨rfl, rfl⟩
    unfold Stack.hwPassive
    split
    · refine Begun0.error ?_ _ _
      cases hb with
      | not h hb hn => exact .not h hb (hd.2.trans hn)
      | yes h hp h0 hq hb hn => exact .yes h hp h0 hq (hb.trans hd.1.symm) (Nat.lt_of_lt_of_eq hn hd.2.symm)
    · exact hb
  · exact h0

theorem search_tells {s : Stack} (hi : RInv env s) (now : Nat) (bus : BusState) (lec : Lec) :
    let s' := s.process env now bus lec
    ((s.tells env (.process now bus lec)).isSome = true ↔ Searching s ∧ ¬ Searching s') ∧
    ∀ b, s.tells env (.process now bus lec) = some b →
      s'.slv.link.mode = .operational ∧ s'.slv.link.hwRate = (if Rate b then b else s.slv.link.hwRate) ∧
      s'.slv.link.cur = (if Rate b then b else s.slv.link.cur) ∧ ∃ c, EndWhy env s now s.rc.pending lec c ∧ c.back = b := by
  intro s'
  obtain ⟨p, hp⟩ := Slave.trigger_eq env.toEnv s.slv now
  have ht : s.tells env (.process now bus lec) =
      { s with slv := { s.slv with sync := { s.slv.sync with periode := p } } }.hwErrorTells env now bus lec := by
    show ({ s with slv := s.slv.trigger env.toEnv now } : Stack).hwErrorTells env now bus lec = _
    rw [hp]
  have hk : Keep s { s with slv := { s.slv with sync := { s.slv.sync with periode := p } } } := ⟨rfl, rfl⟩
  have hs' : Searching s' ↔ Searching (({ s with slv := { s.slv with sync := { s.slv.sync with periode := p } } } : Stack).hwError env now bus lec) := by
    have e : s' = (Stack.processTx env ({ s with slv := s.slv.trigger env.toEnv now }.hwError env now bus lec) now).1 := rfl
    rw [e, hp]
    unfold Searching
    rw [(Keep.processTx env _ now).1]
  rw [ht]
  by_cases hs : Searching s
  · have ho : ¬ s.rc.state = .off := fun e => not_searching e hs
    have key : ∀ t : Stack, Keep s t → t.hwErrorTells env now bus lec = t.rcProcessTells env now t.rc.pending lec ∧
        t.hwError env now bus lec = t.rcProcess env now t.rc.pending lec := by
      intro t hk
      have ho : ¬ t.rc.state = .off := by rw [hk.1]; exact ho
      unfold hwErrorTells hwErrorMid hwError
      dsimp only
      rw [if_neg (c := (bus ≠ .active ∨ lec ≠ .none) ∧ t.rc.state = .off) (fun e => ho e.2), if_pos ho, if_pos ho]
      exact ⟨rfl, rfl⟩
    have hq : s.rc.process = true := hi.proc hs
    obtain ⟨k1, k2⟩ := key _ hk
    rw [k1]
    rw [k2] at hs'
    have fwd : ∀ b, Stack.rcProcessTells env { s with slv := { s.slv with sync := { s.slv.sync with periode := p } } } now s.rc.pending lec = some b →
        ¬ Searching s' := by
      intro b e
      obtain ⟨q, c, w, -⟩ := why_of_tells e
      intro g
      exact not_searching (tells_of_why q w).2 (hs'.1 g)
    have bwd : ¬ Searching s' → ∃ c : Recon, Stack.rcProcessTells env { s with slv := { s.slv with sync := { s.slv.sync with periode := p } } } now s.rc.pending lec = some c.back ∧
        s'.slv.link.mode = .operational ∧ s'.slv.link.hwRate = (if Rate c.back then c.back else s.slv.link.hwRate) ∧
        s'.slv.link.cur = (if Rate c.back then c.back else s.slv.link.cur) ∧ EndWhy env s now s.rc.pending lec c := by
      intro g
      obtain ⟨c, w, e1, e2, e3, -⟩ := process_end hi hs now bus lec g
      refine ⟨c, (tells_of_why (env := env) (t := { s with slv := { s.slv with sync := { s.slv.sync with periode := p } } }) hq ?_).1, e1, e2, e3, w⟩
      cases w with
      | suMsg a b d => exact .suMsg a b d
      | suTime a b x d => exact .suTime a b x d
      | msg a b d => exact .msg a b d
      | noErr a b x d => exact .noErr a b x d
      | bit0 a b x d => exact .bit0 a b x d
      | undef a b x d => exact .undef a b x d
    refine ⟨⟨fun h => ⟨hs, ?_⟩, fun h => ?_⟩, fun b h => ?_⟩
    · obtain ⟨b, hb⟩ := Option.isSome_iff_exists.1 h
      exact fwd b hb
    · obtain ⟨c, e, -⟩ := bwd h.2
      rw [show Stack.rcProcessTells env _ now _ lec = some c.back from e]; rfl
    · obtain ⟨c, e, r1, r2, r3, w⟩ := bwd (fwd b h)
      have : some b = some c.back := h.symm.trans e
      injection this with this
      rw [this]; exact ⟨r1, r2, r3, c, w, rfl⟩
  · have ho : s.rc.state = .off := hi.act.resolve_right hs
    have hn : Stack.hwErrorTells env { s with slv := { s.slv with sync := { s.slv.sync with periode := p } } } now bus lec = none := by
      unfold hwErrorTells
      dsimp only
      split
      · next g => exact begun_tells (mid_begun hk ho now bus lec) now lec g
      · rfl
    rw [hn]
    exact ⟨⟨fun h => (nomatch h), fun h => absurd h.1 hs⟩, fun b h => (nomatch h)⟩

/-- **C149 (search).**  In every history of the main CPU with search: `lcsa_process` tells the monitor CPU a rate exactly if a search ends in the
call, and just one.  The node is in operation then, and if the rate told is one of the four rates, the controller has it.  (If it is not, the
controller keeps its rate; C50 says when.) -/
theorem C149_search (mem : Nat → List Byte) (info : XInfo) (is : List SIn) (s : Stack) (hm : ∀ i ∈ is, noMode i = true)
    (hr : (boot mem info).run env is = some s) (now : Nat) (bus : BusState) (lec : Lec) :
    let s' := s.process env now bus lec
    ((s.tells env (.process now bus lec)).isSome = true ↔ Searching s ∧ ¬ Searching s') ∧
    ∀ b, s.tells env (.process now bus lec) = some b →
      s'.slv.link.mode = .operational ∧ s'.slv.link.hwRate = (if Rate b then b else s.slv.link.hwRate) ∧
      s'.slv.link.cur = (if Rate b then b else s.slv.link.cur) :=
  have h := search_tells (RInv.run is (RInv.boot mem info) hm hr) now bus lec
  ⟨h.1, fun b hb => let ⟨x, y, z, _⟩ := h.2 b hb; ⟨x, y, z⟩⟩

/-- **C149 (which rate).**  The rate `lcsa_process` tells is the rate of C50, with which the search ends and which the application gets: the
startup rate if neither a frame nor an error was seen since `lcsa_start`, else the rate of the last switch of any search since power-on. -/
theorem C149_exact (mem : Nat → List Byte) (info : XInfo) (is : List SIn) (s : Stack) (hm : ∀ i ∈ is, noMode i = true)
    (hr : (boot mem info).run env is = some s) (now : Nat) (bus : BusState) (lec : Lec) :
    s.tells env (.process now bus lec) =
      if Searching s ∧ ¬ Searching (s.process env now bus lec) then some ((searchBook env (boot mem info) is {}).ends s.slv.link.startup) else none := by
  have hi := RInv.run is (RInv.boot mem info) hm hr
  have g0 : BInv {} (boot mem info) :=
    ⟨rfl, fun x => absurd x (not_searching (s := boot mem info) rfl), fun x => by cases x⟩
  have g := BInv.run is (RInv.boot mem info) g0 hm hr
  obtain ⟨h1, h2⟩ := search_tells hi now bus lec
  cases ht : s.tells env (.process now bus lec) with
  | none =>
    rw [ht] at h1
    rw [if_neg (fun e => (nomatch h1.2 e))]
  | some b =>
    have h3 := h1.1 (by rw [ht]; rfl)
    obtain ⟨-, -, -, c, w, e⟩ := h2 b ht
    rw [if_pos h3, ← e, ends_back g h3.1 w]


/-- **C149 (start with search).**  `lcsa_start` tells a rate exactly in the download state, and the controller then has it, if it is one of the four. -/
theorem C149_start (env : AEnv) (s : Stack) (now : Nat) :
    (s.tells env (.start now) = none ↔ s.lcsa ≠ .download) ∧
    ∀ b, s.tells env (.start now) = some b →
      (s.start env now).1.slv.link.mode = .operational ∧ (s.start env now).1.slv.link.hwRate = (if Rate b then b else s.slv.link.hwRate) := by
  have e : s.tells env (.start now) = if s.lcsa = .download then some s.slv.link.startup else none := rfl
  rw [e]
  by_cases h : s.lcsa = .download
  · rw [if_pos h]
    refine ⟨⟨fun k => (nomatch k), fun k => absurd h k⟩, fun b hb => ?_⟩
    injection hb with hb
    subst hb
    have key : ∀ r : Stack × Err, (if r.2 = E.ok then ({ r.1.startAck env with lcsa := .running }, E.ok) else r).1.slv.link = r.1.slv.link := by
      intro r
      split
      · exact (startAck_keep env r.1).2
      · rfl
    unfold Stack.start
    dsimp only
    rw [key, if_pos h]
    have k2 : ∀ r : Stack × Err, (if r.2 = E.ok then (({ r.1 with lcsa := .running } : Stack), r.2) else r).1.slv.link = r.1.slv.link := by
      intro r; split <;> rfl
    rw [k2, nodeMode_link]
    generalize hs1 : (Stack.nodeMode env (s.setR fun c => { c with state := .off }) .stopped).1 = s1
    have m1 : s1.slv.link = (Slave.setMode env.toEnv s.slv.link .stopped).1 := by rw [← hs1]; rfl
    obtain ⟨a1, a2, a3, a4, -⟩ := Slave.setMode_mode env.toEnv s.slv.link .stopped
    rw [← m1] at a1 a2
    have a6 : s1.slv.link.startup = s.slv.link.startup := by rw [m1]; exact (Slave.setMode_mode ..).2.2.2.2.2
    have hl : ((Stack.setR (s1.baudRate env s1.slv.link.startup).1 fun c => { c with cause := .download }).slv.link) =
        (Slave.setBaud s1.slv.link s.slv.link.startup).1 := by rw [← a6]; rfl
    rw [hl]
    refine ⟨(Slave.setMode_mode ..).1, (Slave.setMode_mode ..).2.1.trans ?_⟩
    by_cases hb : Rate s.slv.link.startup
    · rw [if_pos hb, Slave.setBaud_stopped _ _ a1 hb]
    · rw [if_neg hb, Slave.setBaud_other _ _ hb]; exact a2
  · rw [if_neg h]
    exact ⟨⟨fun _ => h, fun _ => rfl⟩, fun b hb => (nomatch hb)⟩

/-! ## Whole histories -/
namespace Spec

/-- the rate told last -/
def lastTold (env : AEnv) : Stack → List SIn → Option Nat → Option Nat
  | _, [], b => b
  | s, i :: is, b => match s.step env i with
    | some s' => lastTold env s' is ((s.tells env i).or b)
    | none => b

/-- `lcsa_start` or `lcsa_process` -/
def own : SIn → Bool
  | .start _ | .process .. => true
  | _ => false

/-- no other input changes the rate of the controller: no rate command of the master, which the monitor CPU receives itself, and no effect of
`lcsa_set_baudrate` -/
def untouched (env : AEnv) : Stack → List SIn → Bool
  | _, [] => true
  | s, i :: is => match s.step env i with
    | some s' => decide (own i = false → s'.slv.link.hwRate = s.slv.link.hwRate) && untouched env s' is
    | none => true

end Spec
open Spec

/-- an error either begins a search or leaves the rate -/
theorem error_rate {s : Stack} {r : Nat} (h : s.rc.state ≠ .off ∨ s.slv.link.hwRate = r) (now : Nat) (cause : RCause) :
    (s.rcError env now cause).rc.state ≠ .off ∨ (s.rcError env now cause).slv.link.hwRate = r := by
  have e := rcError_spec env s now cause
  by_cases hc : s.rc.state = .off ∧ s.lcsa ≠ .stopped
  · rw [if_pos hc] at e
    exact .inl (by rw [e.1]; exact (nomatch ·))
  · have : s.rcError env now cause = s := by unfold Stack.rcError; rw [if_neg hc]
    rw [this]; exact h

/-- outside a search `lcsa_process` begins one or leaves the rate -/
theorem process_rate {s : Stack} (ho : s.rc.state = .off) (now : Nat) (bus : BusState) (lec : Lec)
    (hn : ¬ Searching (s.process env now bus lec)) : (s.process env now bus lec).slv.link.hwRate = s.slv.link.hwRate := by
  obtain ⟨p, hp⟩ := Slave.trigger_eq env.toEnv s.slv now
  have hk : Keep s { s with slv := { s.slv with sync := { s.slv.sync with periode := p } } } := ⟨rfl, rfl⟩
  unfold Stack.process at hn ⊢
  rw [hp] at hn ⊢
  dsimp only at hn ⊢
  generalize ({ s with slv := { s.slv with sync := { s.slv.sync with periode := p } } } : Stack) = t at hk hn ⊢
  have hk2 := Keep.processTx env (t.hwError env now bus lec) now
  rw [hk2.2]
  have hn2 : ¬ Searching (t.hwError env now bus lec) := by
    intro g; refine hn ?_; unfold Searching; rw [hk2.1]; exact g
  have hq : (t.hwErrorMid env now bus lec).rc.state ≠ .off ∨ (t.hwErrorMid env now bus lec).slv.link.hwRate = s.slv.link.hwRate := by
    have hb : (t.hwBusOff env now bus lec).rc.state ≠ .off ∨ (t.hwBusOff env now bus lec).slv.link.hwRate = s.slv.link.hwRate := by
      unfold Stack.hwBusOff
      split
      · refine error_rate (.inr ?_) _ _
        rw [nodeMode_link, nodeMode_link, (Slave.setMode_mode ..).2.1, (Slave.setMode_mode ..).2.1, hk.2]
      · exact .inr (by rw [hk.2])
    unfold hwErrorMid
    split
    · unfold Stack.hwPassive
      split
      · refine error_rate ?_ _ _
        refine hb.imp id fun e => Eq.trans ?_ e
        show (Slave.drvMode env.toEnv _ .listen).1.hwRate = _
        unfold Slave.drvMode; split <;> rfl
      · exact hb
    · exact .inr (by rw [hk.2])
  have hz := mid_begun (env := env) hk ho now bus lec
  have ee : t.hwError env now bus lec = if (t.hwErrorMid env now bus lec).rc.state ≠ .off
      then (t.hwErrorMid env now bus lec).rcProcess env now (t.hwErrorMid env now bus lec).rc.pending lec else t.hwErrorMid env now bus lec := rfl
  by_cases hs : (t.hwErrorMid env now bus lec).rc.state = .off
  · rw [ee, if_neg (fun e => e hs)]
    exact hq.resolve_left (fun e => e hs)
  · exfalso
    refine hn2 ?_
    rw [ee, if_pos hs]
    cases hz with
    | not h => exact absurd h hs
    | yes h hp h0 hq =>
      generalize t.hwErrorMid env now bus lec = z at h hp h0 hq
      have hT := rcProcess_turn env z now z.rc.pending lec (.inr (.inl h)) hq
      generalize z.rcProcess env now z.rc.pending lec = u at hT
      cases hT with
      | ended c w e =>
        cases w with
        | suMsg a => rw [h] at a; cases a
        | suTime a => rw [h] at a; cases a
        | msg a b => rw [hp] at b; cases b
        | noErr a b => rw [hp] at b; cases b
        | bit0 a b x => rw [h0] at x; exact absurd x (by decide)
        | undef a b x => rw [hp] at x; cases x
      | switched st c b k hst hrc =>
        refine .inr ?_
        rw [hrc]
        rcases hst with ⟨x, -⟩ | ⟨-, x, -⟩
        · rw [h] at x; cases x
        · exact .inr x
      | same st b k hst hk e =>
        subst e
        refine .inr ?_
        rcases hst with x | ⟨x, -⟩
        · rw [h] at x; exact .inl x.symm
        · rw [h] at x; cases x

/-- the claim about a state -/
def Told (b : Option Nat) (s : Stack) : Prop := ¬ Searching s → ∀ r, b = some r → Rate r → s.slv.link.hwRate = r

theorem Told.step {s s' : Stack} {i : SIn} {b : Option Nat} (hi : RInv env s) (h : Told b s) (hm : noMode i = true) (hs : s.step env i = some s')
    (hu : own i = false → s'.slv.link.hwRate = s.slv.link.hwRate) : Told ((s.tells env i).or b) s' := by
  by_cases h1 : ∃ now bus lec, i = .process now bus lec
  · obtain ⟨now, bus, lec, rfl⟩ := h1
    injection hs with hs
    obtain ⟨k1, k2⟩ := search_tells hi now bus lec
    intro hn r e hr
    rw [← hs] at hn ⊢
    cases ht : s.tells env (.process now bus lec) with
    | some q =>
      rw [ht] at e
      injection e with e
      obtain ⟨-, k, -⟩ := k2 q ht
      rw [k, e, if_pos hr]
    | none =>
      rw [ht] at e k1
      have hn0 : ¬ Searching s := fun g => (nomatch k1.2 ⟨g, hn⟩)
      rw [process_rate (hi.act.resolve_right hn0) now bus lec hn]
      exact h hn0 r e hr
  by_cases h2 : ∃ now, i = .start now
  · obtain ⟨now, rfl⟩ := h2
    injection hs with hs
    intro hn r e hr
    rw [← hs] at hn ⊢
    obtain ⟨k1, k2⟩ := C149_start env s now
    cases ht : s.tells env (.start now) with
    | some q =>
      rw [ht] at e
      injection e with e
      rw [(k2 q ht).2, e, if_pos hr]
    | none => exact absurd (.inl (start_spec (k1.1 ht) now).1) hn
  have ho := (other_same hs (fun a b c e => h1 ⟨a, b, c, e⟩) (fun a e => h2 ⟨a, e⟩) hm).1
  have hw : own i = false := by
    cases i <;> first | rfl | exact absurd ⟨_, rfl⟩ h2 | exact absurd ⟨_, _, _, rfl⟩ h1
  have ht : s.tells env i = none := by
    cases i <;> first | rfl | exact absurd ⟨_, rfl⟩ h2 | exact absurd ⟨_, _, _, rfl⟩ h1
  rw [ht]
  intro hn r e hr
  rw [hu hw]
  refine h (fun g => hn ?_) r e hr
  obtain ⟨p, a, b, c, d, -, e⟩ := ho
  unfold Searching
  rw [e]; exact g

/-- **C149 (whole histories).**  In every history of the main CPU with search, as long as only `lcsa_start` and `lcsa_process` change the rate of
the controller: whenever no search is under way, the rate told last to the monitor CPU is the rate of the controller, if it is one of the four rates.

Missing: a rate command of the master changes the rate of the controller, and nothing is told (`C149_counterexample_command`); the monitor CPU has to execute the
command itself.  And a rate told that is not one of the four, as at a power-on with traffic (`C149_counterexample_traffic`). -/
theorem C149_history_partial (env : AEnv) (mem : Nat → List Byte) (info : XInfo) (is : List SIn) (s : Stack) (hm : ∀ i ∈ is, noMode i = true)
    (hr : (boot mem info).run env is = some s) (hu : untouched env (boot mem info) is = true) (hn : ¬ Searching s) (b : Nat)
    (hb : lastTold env (boot mem info) is none = some b) (hR : Rate b) : s.slv.link.hwRate = b := by
  have key : ∀ (is : List SIn) (a : Stack) (o : Option Nat), RInv env a → Told o a → (∀ i ∈ is, noMode i = true) → untouched env a is = true →
      a.run env is = some s → Told (lastTold env a is o) s := by
    intro is
    induction is with
    | nil =>
      intro a o _ h _ _ hr
      injection hr with hr
      rw [← hr]; exact h
    | cons i is ih =>
      intro a o hi h hm hu hr
      simp only [Stack.run, Option.bind_eq_some_iff] at hr
      obtain ⟨a', e, hr⟩ := hr
      simp only [untouched, e, Bool.and_eq_true, decide_eq_true_eq] at hu
      simp only [lastTold, e]
      exact ih a' _ (hi.step (hm i List.mem_cons_self) e) (h.step hi (hm i List.mem_cons_self) e hu.1) (fun j hj => hm j (List.mem_cons_of_mem _ hj))
        hu.2 hr
  exact key is _ none (RInv.boot mem info) (fun _ r e => (nomatch e)) hm hu hr hn b hb hR

/-! ## Which inputs change the rate -/
namespace Spec

/-- the rate in a message `CHANGE CAN BAUDRATE` to all modules, if a received frame is one: eight bytes, module number 1 in the identifier, 2, rate -/
def commanded : SIn → Option Nat
  | .rx _ _ dlc id _ (x :: hi :: lo :: _) => if dlc = 8 ∧ (id / 4) % 128 = 0 ∧ x.toNat = 2 then some (hi.toNat * 256 + lo.toNat) else none
  | _ => none

end Spec

theorem setBaud_changes {l : Link} {b : Nat} (h : (Slave.setBaud l b).1.hwRate ≠ l.hwRate) :
    Rate b ∧ (l.mode = .init ∨ l.mode = .stopped) ∧ (Slave.setBaud l b).1.hwRate = b := by
  by_cases hb : Rate b
  · have hb' : b ∈ rates := by
      rcases hb with e | e | e | e <;> subst e <;> decide
    rw [Slave.setBaud_supported l b hb'] at h ⊢
    by_cases hm : l.mode = .init ∨ l.mode = .stopped
    · rw [if_pos hm]; exact ⟨hb, hm, rfl⟩
    · rw [if_neg hm] at h; exact absurd rfl h
  · rw [Slave.setBaud_other l b hb] at h; exact absurd rfl h

theorem changeBaud_changes {e : Env} {l : Link} {b : Nat} (h : (Slave.changeBaud e l b).1.hwRate ≠ l.hwRate) :
    Rate b ∧ (Slave.changeBaud e l b).1.hwRate = b := by
  have m := Slave.setMode_mode e l .stopped
  have k : ∀ r : Link × Err, (if r.2 = E.ok then Slave.setMode e r.1 l.mode else r).1.hwRate = r.1.hwRate := by
    intro r
    split
    · exact (Slave.setMode_mode e r.1 l.mode).2.1
    · rfl
  unfold Slave.changeBaud at h ⊢
  dsimp only at h ⊢
  rw [k] at h ⊢
  split at h
  · next g =>
    rw [if_pos g]
    rw [← m.2.1] at h
    have := setBaud_changes h
    exact ⟨this.1, this.2.2⟩
  · exact absurd m.2.1 h

/-- a system message that changes the link is a rate command to all -/
theorem sysMsg_link {e : Env} {s s' : Slave} {nr dlc : Nat} {src : List Byte} {x : Err} (h : Slave.sysMsg e s nr dlc src = some (s', x))
    (hn : s'.link.hwRate ≠ s.link.hwRate) : dlc = 8 ∧ nr = 1 ∧ Slave.at8 src 0 = 2 ∧ s'.link = (Slave.changeBaud e s.link (Slave.at8 src 1 * 256 + Slave.at8 src 2)).1 := by
  cases Slave.sysMsg_eff h with
  | baud hc =>
    have hd : dlc = 8 := by
      refine Decidable.byContradiction fun g => hn ?_
      unfold Slave.sysMsg at h
      rw [if_pos g] at h
      injection h with h
      exact (congrArg (fun r => r.1.link.hwRate) h).symm
    refine ⟨hd, Decidable.byContradiction fun g => hn ?_, hc, rfl⟩
    unfold Slave.sysMsg at h
    rw [if_neg (fun f => f hd)] at h
    dsimp only at h
    rw [hc] at h
    generalize (if nr = 1 then none else s.node.findNr e nr) = dst at h
    split at h
    · injection h with h
      exact (congrArg (fun r => r.1.link.hwRate) h).symm
    split at h
    · injection h with h
      exact (congrArg (fun r => r.1.link.hwRate) h).symm
    have h : some (s, E.notAllowedDirect) = some _ := h
    injection h with h
    exact (congrArg (fun r => r.1.link.hwRate) h).symm
  | cycle h => rw [Slave.setCycle_eq] at hn; exact absurd rfl hn
  | _ => exact absurd rfl hn

theorem commanded_of {now obj dlc id : Nat} {ext : Bool} {data : List Byte} (h1 : dlc = 8) (h2 : sysNrOfId id = 1) (h3 : Slave.at8 data 0 = 2)
    (h4 : Rate (Slave.at8 data 1 * 256 + Slave.at8 data 2)) :
    commanded (.rx now obj dlc id ext data) = some (Slave.at8 data 1 * 256 + Slave.at8 data 2) := by
  unfold sysNrOfId at h2
  have h2 : (id / 4) % 128 = 0 := by omega
  rcases data with - | ⟨x, - | ⟨y, - | ⟨z, r⟩⟩⟩
  · exact absurd h3 (by decide)
  · exact absurd h4 (by show ¬ Rate (0 * 256 + 0); decide)
  · have h : Rate (y.toNat * 256 + 0) := h4
    unfold Rate at h
    omega
  · have h3 : x.toNat = 2 := h3
    show (if dlc = 8 ∧ (id / 4) % 128 = 0 ∧ x.toNat = 2 then some (y.toNat * 256 + z.toNat) else none) = _
    rw [if_pos ⟨h1, h2, h3⟩]
    rfl

/-- **C149 (other inputs).**  In every state, an input other than `lcsa_start`, `lcsa_process` and a mode request that changes the rate of the
controller is `lcsa_set_baudrate` of a node not started or stopped, or a message `CHANGE CAN BAUDRATE` to all modules; the controller then has
the rate given there, one of the four. -/
theorem C149_others (env : AEnv) (s s' : Stack) (i : SIn) (h : s.step env i = some s') (ho : own i = false) (hm : noMode i = true)
    (hn : s'.slv.link.hwRate ≠ s.slv.link.hwRate) :
    Rate s'.slv.link.hwRate ∧
    (i = .setBaud s'.slv.link.hwRate ∧ (s.slv.link.mode = .init ∨ s.slv.link.mode = .stopped) ∨ commanded i = some s'.slv.link.hwRate) := by
  have hl := other_link h (fun a b c e => by subst e; cases ho) (fun a e => by subst e; cases ho) hm
  cases i with
  | rx now obj dlc id ext data =>
    simp only [Stack.step, Stack.rx] at h
    split at h
    · injection h with h
      subst h
      exact absurd rfl hn
    split at h
    · injection h with h
      subst h
      exact absurd rfl hn
    simp only [Option.map_eq_some_iff] at h
    obtain ⟨v, hv, h⟩ := h
    subst h
    obtain ⟨-, a⟩ := ((Keep.processTx env (Stack.setSlv env (s.setR fun c => { c with pending := .msg }) v) now).trans
      (Keep.ctrlRx env _ obj id data)).trans (Keep.dataRx env _ obj dlc data)
    rw [a, setSlv_slv] at hn ⊢
    have hv : Slave.handlerRx env.toEnv s.slv now obj dlc id data = some v := hv
    by_cases ho : obj = 0
    · subst ho
      obtain ⟨s1, r, hp⟩ := Slave.frame_request (show Slave.step env.toEnv s.slv (.frame now 0 dlc id data) = some v from hv)
      obtain ⟨-, h2, -⟩ := Slave.processRequest_spec hp
      rw [h2, Slave.checkImage_link, Slave.reqRx_eq] at hn
      exact absurd (congrArg Link.hwRate r.link) hn
    · rcases Slave.frame_other ho (show Slave.step env.toEnv s.slv (.frame now obj dlc id data) = some v from hv) with r | ⟨s1, s2, e, r, hq, rfl⟩
      · exact absurd (congrArg Link.hwRate r.link) hn
      · have hn : s2.link.hwRate ≠ s1.link.hwRate := by rw [r.link]; exact hn
        obtain ⟨k1, k2, k3, k4⟩ := sysMsg_link hq hn
        show Rate s2.link.hwRate ∧ _
        rw [k4] at hn
        obtain ⟨c1, c2⟩ := changeBaud_changes hn
        have hz : s2.link.hwRate = Slave.at8 data 1 * 256 + Slave.at8 data 2 := by rw [k4]; exact c2
        refine ⟨by rw [hz]; exact c1, .inr ?_⟩
        show _ = some s2.link.hwRate
        rw [hz]
        exact commanded_of k1 k2 k3 c1
  | setBaud b =>
    injection h with h
    subst h
    obtain ⟨k1, k2, k3⟩ := setBaud_changes (l := s.slv.link) (b := b) hn
    have k3 : (s.baudRate env b).1.slv.link.hwRate = b := k3
    rw [k3]
    exact ⟨k1, .inl ⟨rfl, k2⟩⟩
  | _ =>
    exfalso
    generalize s'.slv.link = l at hl hn
    cases hl with
    | same => exact hn rfl
    | startup => exact hn rfl
    | change _ _ h => cases h

/-- **C149 (histories of frames and calls).**  The same with the inputs named: no `lcsa_set_baudrate` and no message `CHANGE CAN BAUDRATE` to all
modules among the inputs.

Missing: as above. -/
theorem C149_plain_partial (env : AEnv) (mem : Nat → List Byte) (info : XInfo) (is : List SIn) (s : Stack) (hm : ∀ i ∈ is, noMode i = true)
    (hr : (boot mem info).run env is = some s) (hb : ∀ i ∈ is, ∀ b, i ≠ .setBaud b) (hc : ∀ i ∈ is, commanded i = none)
    (hn : ¬ Searching s) (b : Nat) (hl : lastTold env (boot mem info) is none = some b) (hR : Rate b) : s.slv.link.hwRate = b := by
  refine C149_history_partial env mem info is s hm hr ?_ hn b hl hR
  clear hr hl
  generalize boot mem info = a
  induction is generalizing a with
  | nil => rfl
  | cons i is ih =>
    unfold untouched
    split
    · next a' e =>
      rw [ih (fun j hj => hm j (List.mem_cons_of_mem _ hj)) (fun j hj => hb j (List.mem_cons_of_mem _ hj))
        (fun j hj => hc j (List.mem_cons_of_mem _ hj)) a', Bool.and_true]
      refine decide_eq_true fun ho => Decidable.byContradiction fun g => ?_
      rcases (C149_others env a a' i e ho (hm i List.mem_cons_self) g).2 with ⟨x, -⟩ | x
      · exact hb i List.mem_cons_self _ x
      · rw [hc i List.mem_cons_self] at x; cases x
    · rfl

/-- **C149 (no search).**  Without search `lcsa_start` tells the current rate of the node as it was before the call.  It is the rate the
controller has after the call just if it is the startup rate (one of the four).

Missing: at the first start after power-on, and at a start at another startup rate, the rate told is not the one of the controller, see the
counterexamples. -/
theorem C149_nosearch_partial (env : AEnv) (s : Stack) (now : Nat) (hR : s.slv.link.startup ∈ rates) :
    s.tellsN (.start now) = some s.slv.link.cur ∧
    (s.tellsN (.start now) = some (s.startN env).1.slv.link.hwRate ↔ s.slv.link.cur = s.slv.link.startup) := by
  obtain ⟨-, -, -, h, -⟩ := C128_start env s
  rw [if_pos hR] at h
  rw [h]
  exact ⟨rfl, fun e => Option.some.inj e, fun e => congrArg some e⟩

/-- C149 is false without search: the first `lcsa_start` after power-on tells the rate 0, and the controller gets the startup rate of 250 kBit -/
theorem C149_counterexample_first : ∃ s s', runN exNo (boot exMem exInfo) exSetup = some s ∧ runN exNo s [.start 10] = some s' ∧
    s.tellsN (.start 10) = some 0 ∧ s'.slv.link.hwRate = 250 ∧ InOperation s' := by
  have h : ((runN exNo (boot exMem exInfo) exSetup).bind fun s => (runN exNo s [.start 10]).map fun s' =>
    decide (s.tellsN (.start 10) = some 0 ∧ s'.slv.link.hwRate = 250 ∧ InOperation s')) = some true := by decide +kernel
  obtain ⟨s, a, b⟩ := Option.bind_eq_some_iff.1 h
  obtain ⟨s', c, d⟩ := Option.map_eq_some_iff.1 b
  exact ⟨s, s', a, c, of_decide_eq_true d⟩

/-- C149 (no search): the second start tells 250, the rate the controller has -/
example : ((runN exNo (boot exMem exInfo) (exSetup ++ [.start 10])).map fun s =>
    (s.slv.link.startup, s.tellsN (.start 20), (s.startN exNo).1.slv.link.hwRate)) = some (250, some 250, 250) := by decide +kernel

/-- after the loss of the bus: a form error, a frame received at 500 kBit, and process requests -/
def exHit : List SIn := [.process 900 .active .form, .process 5000 .active .form, .process 9000 .active .form, .rx 9001 5 8 0x610 false [1, 0, 0, 0, 0, 0, 0, 0],
  .process 9002 .active .none, .process 9003 .active .none]

/-- C149: a history with a start, a loss of the bus and a search: the startup rate is told, then the rate found -/
example : (∀ i ∈ exOn ++ exHit, noMode i = true) ∧
    untouched exA (boot exMem exInfo) (exOn ++ exHit) = true ∧ lastTold exA (boot exMem exInfo) exOn none = some 250 ∧
    ((run exA (boot exMem exInfo) (exOn ++ exHit)).map fun s => (decide (Searching s), s.slv.link.hwRate,
      lastTold exA (boot exMem exInfo) (exOn ++ exHit) none)) = some (false, 500, some 500) := by
  decide +kernel

/-- C149 (whole histories) is false with a rate command of the master: at power-on 250 kBit was told, the command sets 1000 kBit, and nothing is told -/
theorem C149_counterexample_command : ∃ s, run exA (boot exMem exInfo) (exOff ++ [.rx 710 2 8 0x002 false [2, 0x03, 0xE8, 0, 0, 0, 0, 0]]) = some s ∧
    InOperation s ∧ s.slv.link.hwRate = 1000 ∧
    lastTold exA (boot exMem exInfo) (exOff ++ [.rx 710 2 8 0x002 false [2, 0x03, 0xE8, 0, 0, 0, 0, 0]]) none = some 250 := by
  have h : ((run exA (boot exMem exInfo) (exOff ++ [.rx 710 2 8 0x002 false [2, 0x03, 0xE8, 0, 0, 0, 0, 0]])).map fun s =>
    decide (InOperation s ∧ s.slv.link.hwRate = 1000 ∧
      lastTold exA (boot exMem exInfo) (exOff ++ [.rx 710 2 8 0x002 false [2, 0x03, 0xE8, 0, 0, 0, 0, 0]]) none = some 250)) = some true := by
    decide +kernel
  obtain ⟨s, a, b⟩ := Option.map_eq_some_iff.1 h
  exact ⟨s, a, of_decide_eq_true b⟩

/-- C149 (which rate): the process request after the frame -/
example : ((run exA (boot exMem exInfo) (exOn ++ exHit.take 5)).map fun s => (s.tells exA (.process 9003 .active .none),
    (searchBook exA (boot exMem exInfo) (exOn ++ exHit.take 5) {}).ends s.slv.link.startup)) = some (some 500, 500) := by
  decide +kernel

/-- C149 (named inputs): the same history contains neither of both -/
example : ((exOn ++ exHit).all fun i => match i with | .setBaud _ => false | _ => true) = true ∧
    ∀ i ∈ exOn ++ exHit, commanded i = none := by decide +kernel

/-- C149 (other inputs): the rate command of the counterexample, and `lcsa_set_baudrate` before the start -/
example : commanded (.rx 710 2 8 0x002 false [2, 0x03, 0xE8, 0, 0, 0, 0, 0]) = some 1000 ∧
    ((run exA (boot exMem exInfo) (exSetup ++ [.setBaud 500])).map fun s => s.slv.link.hwRate) = some 500 := by decide +kernel

/-- C149 is false with search as well at a power-on with traffic on the bus: the frame received at the startup rate of 250 kBit ends the search,
the monitor CPU is told the rate 0, and the controller keeps 250 kBit (the rate 0 is the one of C50) -/
theorem C149_counterexample_traffic : ∃ s,
    run exA (boot exMem exInfo) (exSetup ++ [.start 10, .rx 11 5 8 0x610 false [1, 0, 0, 0, 0, 0, 0, 0], .process 12 .active .none]) = some s ∧
    InOperation s ∧ s.slv.link.hwRate = 250 ∧
    lastTold exA (boot exMem exInfo) (exSetup ++ [.start 10, .rx 11 5 8 0x610 false [1, 0, 0, 0, 0, 0, 0, 0], .process 12 .active .none]) none =
      some 0 := by
  have h : ((run exA (boot exMem exInfo) (exSetup ++ [.start 10, .rx 11 5 8 0x610 false [1, 0, 0, 0, 0, 0, 0, 0], .process 12 .active .none])).map
    fun s => decide (InOperation s ∧ s.slv.link.hwRate = 250 ∧
      lastTold exA (boot exMem exInfo) (exSetup ++ [.start 10, .rx 11 5 8 0x610 false [1, 0, 0, 0, 0, 0, 0, 0], .process 12 .active .none]) none =
        some 0)) = some true := by decide +kernel
  obtain ⟨s, a, b⟩ := Option.map_eq_some_iff.1 h
  exact ⟨s, a, of_decide_eq_true b⟩

/-- C149 (start): in the download state -/
example : Stack.tells exA { exOnS with lcsa := .download } (.start 10) = some 250 ∧
    (Stack.start exA { exOnS with lcsa := .download } 10).1.slv.link.hwRate = 250 ∧ Stack.tells exA exOnS (.start 10) = none := by
  decide +kernel

end LiCan.Stack
