import Verif.Props.Reconnect
import Verif.Spec.EndRate
/-! # C50, exact: the rate with which a search ends, in every history -/
namespace LiCan.Stack
open Spec
open Node (exMem exEnv exOps)

variable {env : AEnv}

/-- the variables of the search and the book of the history -/
structure BInv (b : SearchBook) (s : Stack) : Prop where
  back : s.rc.back = b.last
  first : Searching s → (s.rc.state = .startup ↔ b.first = true)
  heard : s.rc.state = .startup → s.rc.pending ≠ .lec ∧ (s.rc.pending = .msg ↔ b.heard = true)

theorem rcError_stored (env : AEnv) (s : Stack) (now : Nat) (cause : RCause) (h : s.rc.state = .off ∧ s.lcsa ≠ .stopped) :
    (s.rcError env now cause).slv.link.stored = tab.getD (succ4 s.rc.idx) 0 ∧
    (s.rcError env now cause).slv.link.storedN = s.slv.link.storedN + 1 := by
  unfold Stack.rcError
  rw [if_pos h]
  dsimp only
  unfold Stack.rcOn
  dsimp only
  rw [if_neg (by decide)]
  have hk := notify_keep s s.rc.onStart .onStart
  generalize s.notify s.rc.onStart .onStart = s0 at hk ⊢
  obtain ⟨-, -, -, -, e5, e6, -⟩ := nextBaud_spec env
    ({ (((s0.nodeMode env .stopped).1.nodeMode env .listen).1.setR fun c => { c with state := .on, cause := cause, pending := .lec }) with
      lcsa := .reconnect }.setR fun c => { c with bit0 := 0 }) now
  generalize hw : Stack.nextBaud env _ now = w at *
  refine ⟨?_, ?_⟩
  · refine e5.trans ?_
    show tab.getD (succ4 s0.rc.idx) 0 = _
    rw [hk.1]
  · refine e6.trans ?_
    show (Slave.setMode env.toEnv (Slave.setMode env.toEnv s0.slv.link .stopped).1 .listen).1.storedN + 1 = _
    obtain ⟨-, -, -, -, m5, -⟩ := Slave.setMode_mode env.toEnv s0.slv.link .stopped
    obtain ⟨-, -, -, -, n5, -⟩ := Slave.setMode_mode env.toEnv (Slave.setMode env.toEnv s0.slv.link .stopped).1 .listen
    rw [n5, m5, hk.2]

/-- no search before, and what may have begun -/
inductive Begun (s s' : Stack) : Prop
  | not (h : s'.rc.state = .off) (hb : s'.rc.back = s.rc.back)
  | yes (h : s'.rc.state = .on ∨ s'.rc.state = .idle) (hb : s'.rc.back = s'.slv.link.stored)
      (hn : s.slv.link.storedN < s'.slv.link.storedN)

/-- the same, and how far -/
inductive Begun0 (s s' : Stack) : Prop
  | not (h : s'.rc.state = .off) (hb : s'.rc.back = s.rc.back) (hn : s'.slv.link.storedN = s.slv.link.storedN)
  | yes (h : s'.rc.state = .on) (hp : s'.rc.pending = .lec) (h0 : s'.rc.bit0 = 0) (hq : s'.rc.process = true)
      (hb : s'.rc.back = s'.slv.link.stored) (hn : s.slv.link.storedN < s'.slv.link.storedN)

theorem Begun0.error {a s : Stack} (h : Begun0 a s) (now : Nat) (cause : RCause) : Begun0 a (s.rcError env now cause) := by
  have e := rcError_spec env s now cause
  by_cases hc : s.rc.state = .off ∧ s.lcsa ≠ .stopped
  · rw [if_pos hc] at e
    obtain ⟨s1, s2⟩ := rcError_stored env s now cause hc
    cases h with
    | not h hb hn =>
      refine .yes ?_ ?_ ?_ ?_ ?_ ?_
      · rw [e.1]
      · rw [e.1]
      · rw [e.1]
      · rw [e.1]
      · rw [e.1, s1]
      · omega
    | yes h => rw [h] at hc; cases hc.1
  · rw [if_neg hc] at e
    rw [e]; exact h

theorem process_begun {s : Stack} (ho : s.rc.state = .off) (now : Nat) (bus : BusState) (lec : Lec) :
    Begun s (s.process env now bus lec) := by
  obtain ⟨p, hp⟩ := Slave.trigger_eq env.toEnv s.slv now
  have hk : Keep s { s with slv := { s.slv with sync := { s.slv.sync with periode := p } } } := ⟨rfl, rfl⟩
  unfold Stack.process
  rw [hp]
  dsimp only
  generalize ({ s with slv := { s.slv with sync := { s.slv.sync with periode := p } } } : Stack) = t at hk ⊢
  have hk2 := Keep.processTx env (t.hwError env now bus lec) now
  generalize (Stack.processTx env (t.hwError env now bus lec) now).1 = w at hk2 ⊢
  have h0 : Begun0 s t := .not (by rw [hk.1]; exact ho) (by rw [hk.1]) (by rw [hk.2])
  have key : Begun s (t.hwError env now bus lec) := by
    have hto : t.rc.state = .off := by rw [hk.1]; exact ho
    have hb : Begun0 s (t.hwBusOff env now bus lec) := by
      unfold Stack.hwBusOff
      split
      · refine Begun0.error ?_ _ _
        refine .not hto (by rw [nodeMode_rc, nodeMode_rc, hk.1]) ?_
        rw [nodeMode_link, nodeMode_link, (Slave.setMode_mode ..).2.2.2.2.1, (Slave.setMode_mode ..).2.2.2.2.1, hk.2]
      · exact h0
    have hq : Begun0 s ((t.hwBusOff env now bus lec).hwPassive env now bus) := by
      generalize t.hwBusOff env now bus lec = y at hb
      have hd : (Slave.drvMode env.toEnv y.slv.link .listen).1.stored = y.slv.link.stored ∧
          (Slave.drvMode env.toEnv y.slv.link .listen).1.storedN = y.slv.link.storedN := by
        unfold Slave.drvMode; split <;> exact ⟨rfl, rfl⟩
      unfold Stack.hwPassive
      split
      · refine Begun0.error ?_ _ _
        cases hb with
        | not h hb hn => exact .not h hb (hd.2.trans hn)
        | yes h hp h0 hq hb hn => exact .yes h hp h0 hq (hb.trans hd.1.symm) (Nat.lt_of_lt_of_eq hn hd.2.symm)
      · exact hb
    unfold Stack.hwError
    dsimp only
    generalize (t.hwBusOff env now bus lec).hwPassive env now bus = y at hq ⊢
    have hz : Begun0 s (if (bus ≠ .active ∨ lec ≠ .none) ∧ t.rc.state = .off then y else t) := by
      split
      · exact hq
      · exact h0
    generalize (if (bus ≠ .active ∨ lec ≠ .none) ∧ t.rc.state = .off then y else t) = z at hz ⊢
    cases hz with
    | not h hb hn => rw [if_neg (fun e => e h)]; exact .not h hb
    | yes h hp h0 hq hb hn =>
      rw [if_pos (by rw [h]; decide)]
      have hT := rcProcess_turn env z now z.rc.pending lec (.inr (.inl h)) hq
      generalize z.rcProcess env now z.rc.pending lec = u at hT
      cases hT with
      | ended c w e =>
        cases w with
        | suMsg a => rw [h] at a; cases a
        | suTime a => rw [h] at a; cases a
        | msg a b => rw [hp] at b; cases b
        | noErr a b => rw [hp] at b; cases b
        | bit0 a b x => rw [h0] at x; exact absurd x (by decide)
        | undef a b x => rw [hp] at x; cases x
      | switched st c b k hst hrc hm hl hw hss hnn hlc hlog =>
        refine .yes ?_ ?_ ?_
        · rw [hrc]
          rcases hst with ⟨x, -⟩ | ⟨-, x, -⟩
          · rw [h] at x; cases x
          · exact .inr x
        · rw [hrc, hss]
        · omega
      | same st b k hst hk e =>
        subst e
        refine .yes ?_ hb hn
        rcases hst with x | ⟨x, -⟩
        · rw [h] at x; exact .inl x.symm
        · rw [h] at x; cases x
  cases key with
  | not h hb => exact .not (by rw [hk2.1]; exact h) (by rw [hk2.1]; exact hb)
  | yes h hb hn => exact .yes (by rw [hk2.1]; exact h) (by rw [hk2.1, hk2.2]; exact hb) (by rw [hk2.2]; exact hn)

/-- when a search at startup becomes one that reacts to errors -/
theorem process_first {s : Stack} (h : s.rc.state = .startup) (hq : s.rc.process = true) (hp : s.rc.pending ≠ .lec)
    (now : Nat) (bus : BusState) (lec : Lec) (hs' : Searching (s.process env now bus lec)) :
    (s.process env now bus lec).rc.state = .startup ↔ ¬ (env.checkLec = true ∧ lec ≠ .none) := by
  obtain ⟨p, hp1⟩ := Slave.trigger_eq env.toEnv s.slv now
  have hk : Keep s { s with slv := { s.slv with sync := { s.slv.sync with periode := p } } } := ⟨rfl, rfl⟩
  unfold Stack.process at hs' ⊢
  rw [hp1] at hs' ⊢
  dsimp only at hs' ⊢
  generalize ({ s with slv := { s.slv with sync := { s.slv.sync with periode := p } } } : Stack) = t at hk hs' ⊢
  have hk2 := Keep.processTx env (t.hwError env now bus lec) now
  generalize (Stack.processTx env (t.hwError env now bus lec) now).1 = w at hk2 hs' ⊢
  have hs2 : Searching (t.hwError env now bus lec) := by unfold Searching; rw [← hk2.1]; exact hs'
  rw [hk2.1]
  clear hs' hk2
  rw [← hk.1] at h hq hp
  have ho : ¬ t.rc.state = .off := by rw [h]; decide
  unfold Stack.hwError at hs2 ⊢
  dsimp only at hs2 ⊢
  rw [if_neg (c := (bus ≠ .active ∨ lec ≠ .none) ∧ t.rc.state = .off) (fun e => ho e.2), if_pos ho] at hs2 ⊢
  unfold Stack.rcProcess at hs2 ⊢
  rw [if_neg (by rw [hq]; decide), h] at hs2 ⊢
  dsimp only at hs2 ⊢
  by_cases h1 : t.rc.pending = .msg
  · rw [if_pos h1] at hs2
    exact absurd hs2 (not_searching (by rw [(rcOff_spec env _ now).1]))
  rw [if_neg h1] at hs2 ⊢
  by_cases h2 : t.rc.time < now
  · rw [if_pos h2] at hs2
    exact absurd hs2 (not_searching (by rw [(rcOff_spec env _ now).1]))
  rw [if_neg h2] at hs2 ⊢
  by_cases h3 : env.checkLec = true ∧ lec ≠ .none
  · rw [if_pos (.inr h3)]
    unfold Stack.rcOn
    dsimp only
    rw [if_neg (by decide)]
    obtain ⟨e1, -⟩ := nextBaud_spec env
      ({ (t.setR fun c => { c with cause := .startup, state := .on }) with lcsa := .reconnect }.setR fun c => { c with bit0 := 0 }) now
    generalize Stack.nextBaud env _ now = v at e1 ⊢
    refine ⟨fun e => ?_, fun e => absurd h3 e⟩
    rw [show (v.setR fun c => { c with process := true }).rc.state = v.rc.state from rfl, e1] at e
    cases e
  · rw [if_neg (fun e => e.elim hp h3)]
    refine ⟨fun _ => h3, fun _ => ?_⟩
    split
    · rw [(nextBaud_spec env t now).1]; exact h
    · exact h

theorem start_back (env : AEnv) (s : Stack) (now : Nat) : (s.start env now).1.rc.back = s.rc.back ∧
    (s.lcsa = .download → (s.start env now).1.rc.state = .off) := by
  have key : ∀ r : Stack × Err, (if r.2 = E.ok then ({ r.1.startAck env with lcsa := .running }, E.ok) else r).1.rc = r.1.rc := by
    intro r
    split
    · exact (startAck_keep env r.1).1
    · rfl
  unfold Stack.start
  dsimp only
  rw [key]
  split
  · split
    · exact ⟨rfl, fun _ => rfl⟩
    · exact ⟨rfl, fun _ => rfl⟩
  · next hd =>
    refine ⟨?_, fun e => absurd e hd⟩
    rw [nodeMode_rc]
    generalize hs1 : (Stack.nodeMode env (s.setR fun c => { c with state := .startup }) .stopped).1 = s1
    have h1 : s1.rc.back = s.rc.back := by rw [← hs1]; rfl
    have h2 : (s1.baudRate env s1.slv.link.startup).1.rc.back = s.rc.back := h1
    generalize (s1.baudRate env s1.slv.link.startup).1 = s2 at h2 ⊢
    unfold Stack.rcStartup
    split
    · dsimp only
      have hk := (notify_keep s2 s2.rc.suStart .suStart).1
      generalize s2.notify s2.rc.suStart .suStart = s3 at hk ⊢
      unfold Stack.rcOn
      dsimp only
      rw [if_pos rfl]
      show s3.rc.back = _
      rw [hk]; exact h2
    · exact h2

theorem ends_back {b : SearchBook} {s : Stack} {now : Nat} {lec : Lec} {c : Recon} (g : BInv b s) (hs : Searching s)
    (w : EndWhy env s now s.rc.pending lec c) : c.back = b.ends s.slv.link.startup := by
  have hf := g.first hs
  have hh := g.heard
  have nf : s.rc.state ≠ .startup → b.ends s.slv.link.startup = b.last := by
    intro h
    unfold SearchBook.ends
    rw [if_neg (fun e => h (hf.mpr e.1))]
  cases w with
  | suMsg a m d =>
    rw [d]
    unfold SearchBook.ends
    rw [if_neg (fun e => by rw [((hh a).2.mp m)] at e; cases e.2)]
    exact g.back
  | suTime a m x d =>
    rw [d]
    unfold SearchBook.ends
    rw [if_pos ⟨hf.mp a, by cases hb : b.heard with | false => rfl | true => exact absurd ((hh a).2.mpr hb) m⟩]
  | msg a m d => rw [d, nf (by rw [a]; decide)]; exact g.back
  | noErr a m x d => rw [d, nf (by rw [a]; decide)]; exact g.back
  | bit0 a m x d => rw [d, nf (by rw [a]; decide)]; exact g.back
  | undef a m x d => rw [d, nf (by rw [a]; decide)]; exact g.back

theorem process_back {s : Stack} (h : RInv env s) (hs : Searching s) (now : Nat) (bus : BusState) (lec : Lec)
    (he : ¬ Searching (s.process env now bus lec)) :
    ∃ c, EndWhy env s now s.rc.pending lec c ∧ (s.process env now bus lec).rc.back = c.back ∧
      (s.process env now bus lec).rc.state = .off := by
  obtain ⟨t, u, k1, hT, k2⟩ := process_turn h hs now bus lec
  cases hT with
  | ended c w e =>
    refine ⟨c, ?_, ?_, ?_⟩
    · cases w with
      | suMsg a b d => rw [k1.1] at a d; exact .suMsg a b d
      | suTime a b x d => rw [k1.1] at a x d; rw [k1.2] at d; exact .suTime a b x d
      | msg a b d => rw [k1.1] at a d; exact .msg a b d
      | noErr a b x d => rw [k1.1] at a d; exact .noErr a b x d
      | bit0 a b x d => rw [k1.1] at a x d; exact .bit0 a b x d
      | undef a b x d => rw [k1.1] at a d; exact .undef a b x d
    · rw [k2.1, e, (rcOff_spec env (t.setR fun _ => c) now).1]; rfl
    · rw [k2.1, e, (rcOff_spec env (t.setR fun _ => c) now).1]
  | switched st c b k hst' hrc hm hl hw hss hn hlc hlog =>
    refine absurd ?_ he
    unfold Searching
    rw [k2.1, hrc]
    rcases hst' with ⟨-, ⟨e, -⟩ | ⟨e, -⟩⟩ | ⟨-, e, -⟩ <;> rw [e]
    · exact .inl rfl
    · exact .inr (.inl rfl)
    · exact .inr (.inr rfl)
  | same st b k hst' hk e =>
    subst e
    refine absurd ?_ he
    unfold Searching
    rw [k2.1]
    show st = .startup ∨ st = .on ∨ st = .idle
    rcases hst' with e | ⟨-, e⟩
    · rw [← e, k1.1]; exact hs
    · exact .inr (.inl e)

theorem BInv.step {b : SearchBook} {s s' : Stack} {i : SIn} (h : RInv env s) (g : BInv b s) (hm : noMode i = true)
    (hs : s.step env i = some s') : BInv (b.next env s i s') s' := by
  have hr' := h.step hm hs
  by_cases h1 : ∃ now bus lec, i = .process now bus lec
  · obtain ⟨now, bus, lec, rfl⟩ := h1
    have hq : s.process env now bus lec = s' := Option.some.inj hs
    unfold SearchBook.next
    dsimp only
    by_cases hs' : Searching s'
    · rw [if_pos hs']
      by_cases hse : Searching s
      · have ht := Tick.of_step h hse hs' hm (fun _ e => by cases e) hs
        have hback : s'.rc.back = (changed s s').getLastD b.last := by
          cases ht with
          | switched hi hp hp' hx hb hw hc hst hni => rw [hb, hc]; rfl
          | same hp hx hb hw hc hst => rw [hb, hc, g.back]; rfl
        have hpend : s'.rc.pending = s.rc.pending := by
          cases ht with
          | switched hi hp hp' => exact hp'
          | same hp => exact hp.resolve_right (fun e => by cases e.1)
        have hno : s.rc.state ≠ .startup → s'.rc.state ≠ .startup := by
          intro hn
          rcases hse with e | e | e
          · exact absurd e hn
          · cases ht with
            | switched hi hp hp' hx hb hw hc hst hni => rw [hst e]; decide
            | same hp hx hb hw hc hst =>
              rcases hst with q | ⟨-, q⟩
              · rw [← q]; exact hn
              · rw [q]; decide
          · cases ht with
            | switched hi hp hp' hx hb hw hc hst hni => exact absurd e hni
            | same hp hx hb hw hc hst =>
              rcases hst with q | ⟨-, q⟩
              · rw [← q]; exact hn
              · rw [q]; decide
        refine ⟨hback, fun _ => ?_, fun hst => ?_⟩
        · by_cases hst : s.rc.state = .startup
          · have e := process_first hst (h.proc hse) (g.heard hst).1 now bus lec (by rw [hq]; exact hs')
            rw [hq] at e
            rw [e, (g.first hse).mp hst]
            simp [hse]
            constructor
            · intro k
              cases hcl : env.checkLec with
              | false => exact .inl rfl
              | true => exact .inr (k hcl)
            · rintro (k | k) kk
              · rw [k] at kk; cases kk
              · exact k
          · have hf : b.first = false := by
              cases hb : b.first with
              | false => rfl
              | true => exact absurd ((g.first hse).mpr hb) hst
            rw [hf]
            exact ⟨fun e => absurd e (hno hst), fun e => by simp at e⟩
        · rw [hpend]
          exact g.heard (Decidable.byContradiction fun e => hno e hst)
      · have ho : s.rc.state = .off := h.act.resolve_right hse
        have hb := process_begun (env := env) ho now bus lec
        rw [hq] at hb
        cases hb with
        | not x => exact absurd hs' (not_searching x)
        | yes x hb hn =>
          have hnu : s'.rc.state ≠ .startup := by rcases x with e | e <;> rw [e] <;> decide
          refine ⟨?_, fun _ => ?_, fun e => absurd e hnu⟩
          · rw [hb]
            unfold changed
            rw [if_neg (by omega)]; rfl
          · simp [hse, hnu]
    · rw [if_neg hs']
      by_cases hse : Searching s
      · rw [if_pos hse]
        obtain ⟨c, w, e, eo⟩ := process_back h hse now bus lec (by rw [hq]; exact hs')
        rw [hq] at e eo
        exact ⟨e.trans (ends_back g hse w), fun x => absurd x hs', fun x => by rw [eo] at x; cases x⟩
      · rw [if_neg hse]
        have ho : s.rc.state = .off := h.act.resolve_right hse
        have hb := process_begun (env := env) ho now bus lec
        rw [hq] at hb
        cases hb with
        | not x hb => exact ⟨hb.trans g.back, fun y => absurd y hs', fun y => by rw [x] at y; cases y⟩
        | yes x hb hn => exact absurd (.inr x) hs'
  by_cases h2 : ∃ now, i = .start now
  · obtain ⟨now, rfl⟩ := h2
    have hq : (s.start env now).1 = s' := Option.some.inj hs
    obtain ⟨e1, e2⟩ := start_back env s now
    rw [hq] at e1 e2
    unfold SearchBook.next
    dsimp only
    by_cases hd : s.lcsa = .download
    · have ho := e2 hd
      rw [if_neg (not_searching ho)]
      exact ⟨e1.trans g.back, fun x => absurd x (not_searching ho), fun x => by rw [ho] at x; cases x⟩
    · obtain ⟨a, -, c, -⟩ := start_spec (env := env) hd now
      rw [hq] at a c
      rw [if_pos (.inl a)]
      refine ⟨e1.trans g.back, fun _ => ⟨fun _ => rfl, fun _ => a⟩, fun _ => ⟨by rw [c]; decide, ?_⟩⟩
      rw [c]
      exact ⟨fun e => (by cases e), fun e => (by cases e)⟩
  · obtain ⟨⟨p, a, b', c, d, hp, e⟩, -⟩ := other_same hs (fun now bus lec e => h1 ⟨now, bus, lec, e⟩) (fun now e => h2 ⟨now, e⟩) hm
    have hst : s'.rc.state = s.rc.state := by rw [e]
    have hbk : s'.rc.back = s.rc.back := by rw [e]
    have hpd : s'.rc.pending = p := by rw [e]
    have hnx : ∀ b'' : SearchBook, b''.last = b.last → b''.first = b.first →
        (s.rc.state = .startup → p ≠ .lec ∧ (p = .msg ↔ b''.heard = true)) → BInv b'' s' := by
      intro b'' q1 q2 q3
      refine ⟨by rw [hbk, g.back, q1], fun x => ?_, fun x => ?_⟩
      · rw [hst, q2]
        refine g.first ?_
        unfold Searching at x ⊢
        rw [← hst]; exact x
      · rw [hpd]
        exact q3 (hst.symm.trans x)
    by_cases hrx : ∃ now obj dlc id ext data, i = .rx now obj dlc id ext data
    · obtain ⟨now, obj, dlc, id, ext, data, rfl⟩ := hrx
      refine hnx _ rfl rfl fun hsu => ?_
      have hpm : p = .msg := by
        have := rx_search env (.inl hsu) now obj dlc id ext data
        have hq : s.rx env now obj dlc id ext data = some s' := hs
        rw [this] at hq
        have hq := Option.some.inj hq
        rw [← hpd, ← hq]; rfl
      rw [hpm]
      exact ⟨by decide, fun _ => rfl, fun _ => rfl⟩
    · have hn : b.next env s i s' = b := by
        unfold SearchBook.next
        split
        · exact absurd ⟨_, rfl⟩ h2
        · exact absurd ⟨_, _, _, _, _, _, rfl⟩ hrx
        · exact absurd ⟨_, _, _, rfl⟩ h1
        · rfl
      have hf : isRx i = false := by
        cases i with
        | rx now obj dlc id ext data => exact absurd ⟨_, _, _, _, _, _, rfl⟩ hrx
        | _ => rfl
      have hp : p = s.rc.pending := hp.resolve_right (fun e => by rw [hf] at e; cases e.1)
      rw [hn]
      refine hnx b rfl rfl fun hsu => ?_
      rw [hp]; exact g.heard hsu

theorem BInv.run (is : List SIn) : ∀ {b : SearchBook} {s s' : Stack}, RInv env s → BInv b s → (∀ i ∈ is, noMode i = true) →
    s.run env is = some s' → BInv (searchBook env s is b) s' := by
  induction is with
  | nil =>
    intro b s s' _ g _ hr
    injection hr with hr
    rw [← hr]; exact g
  | cons i is ih =>
    intro b s s' h g hm hr
    rw [Stack.run] at hr
    rw [searchBook]
    cases hs : s.step env i with
    | none => rw [hs] at hr; cases hr
    | some s1 =>
      rw [hs] at hr
      have hm1 := hm i (List.mem_cons_self ..)
      exact ih (h.step hm1 hs) (g.step h hm1 hs) (fun j hj => hm j (List.mem_cons_of_mem _ hj)) hr

/-- C50, exact: the rate with which a search ends, whatever happened before.  It is the startup rate if neither
a frame nor an error was seen since `lcsa_start`; otherwise it is the rate of the last switch of *any* search
since the node was powered up (or of the last end for lack of traffic, if that came later; 0 if there was
neither).  This is the rate that is reported; the controller gets it if it is one of the four rates and keeps
its rate otherwise. -/
theorem C50_exact (mem : Nat → List Byte) (info : XInfo) (is : List SIn) (s : Stack) (hm : ∀ i ∈ is, noMode i = true)
    (hr : (boot mem info).run env is = some s) (hs : Searching s) (now : Nat) (bus : BusState) (lec : Lec)
    (he : ¬ Searching (s.process env now bus lec)) :
    ∃ b, b = (searchBook env (boot mem info) is {}).ends s.slv.link.startup ∧
      (s.process env now bus lec).slv.link.mode = .operational ∧
      (s.process env now bus lec).slv.link.hwRate = (if Rate b then b else s.slv.link.hwRate) ∧
      (s.process env now bus lec).slv.link.cur = (if Rate b then b else s.slv.link.cur) ∧
      ∃ c : Recon, c.suStop = s.rc.suStop ∧ c.onStop = s.rc.onStop ∧ ∃ l : List (Frame × Bool), ∃ m,
        logOf (s.process env now bus lec) = l.map (fun p => .frame p.1 p.2) ++ (m ++ logOf s) ∧
        (m = [] ∨ m = stopCall c b) ∧
        ((∀ k, env.modeOk k = true) → m = stopCall c b ∧ (s.process env now bus lec).slv.link.drv = .start) := by
  have hi := RInv.run is (RInv.boot mem info) hm hr
  have g0 : BInv {} (boot mem info) :=
    ⟨rfl, fun x => absurd x (not_searching (s := boot mem info) rfl), fun x => by cases x⟩
  have g := BInv.run is (RInv.boot mem info) g0 hm hr
  obtain ⟨c, w, e1, e2, e3, ⟨l, m, e4, e5, e6⟩, e7⟩ := process_end hi hs now bus lec he
  have hb := ends_back g hs w
  have hc : c.suStop = s.rc.suStop ∧ c.onStop = s.rc.onStop := by
    cases w with
    | suMsg a m d => rw [d]; exact ⟨rfl, rfl⟩
    | suTime a m x d => rw [d]; exact ⟨rfl, rfl⟩
    | msg a m d => rw [d]; exact ⟨rfl, rfl⟩
    | noErr a m x d => rw [d]; exact ⟨rfl, rfl⟩
    | bit0 a m x d => rw [d]; exact ⟨rfl, rfl⟩
    | undef a m x d => rw [d]; exact ⟨rfl, rfl⟩
  refine ⟨c.back, hb, e1, e2, e3, c, hc.1, hc.2, l, m, e4, e5, fun k => ⟨e6 k, e7 k⟩⟩

/-! ## Cases -/

/-- an online search that ended at 500 kbit/s -/
def exPast : List SIn := exOn ++ exFound

/-- `lcsa_start` again, and a frame received at the startup rate -/
def exStale : List SIn := exPast ++ [.start 2000, .rx 2001 5 8 0x610 false [1, 0, 0, 0, 0, 0, 0, 0]]

/-- C50 is false after an earlier search: the node is started again, the controller listens at 250 kbit/s and
receives a frame at that rate; the search ends, and the controller is set to 500 kbit/s, the rate with which
the earlier search ended. -/
theorem C50_counterexample_stale : ∃ s, (∀ i ∈ exStale, noMode i = true) ∧ (boot exMem exInfo).run exA exStale = some s ∧
    Searching s ∧ s.slv.link.hwRate = 250 ∧ ¬ Searching (s.process exA 2002 .active .none) ∧
    (s.process exA 2002 .active .none).slv.link.mode = .operational ∧
    (s.process exA 2002 .active .none).slv.link.hwRate = 500 ∧
    ACall.suStop 23 500 ∈ exApp (s.process exA 2002 .active .none) := by
  have h : (match (boot exMem exInfo).run exA exStale with
    | some s => decide (Searching s ∧ s.slv.link.hwRate = 250 ∧ ¬ Searching (s.process exA 2002 .active .none) ∧
        (s.process exA 2002 .active .none).slv.link.mode = .operational ∧
        (s.process exA 2002 .active .none).slv.link.hwRate = 500 ∧
        ACall.suStop 23 500 ∈ exApp (s.process exA 2002 .active .none))
    | none => false) = true := by decide +kernel
  cases hr : (boot exMem exInfo).run exA exStale with
  | none => rw [hr] at h; cases h
  | some s => rw [hr] at h; exact ⟨s, by decide, rfl, of_decide_eq_true h⟩

/-- C50: the book of that history. -/
example : (searchBook exA (boot exMem exInfo) exStale {}).last = 500 ∧
    (searchBook exA (boot exMem exInfo) exStale {}).first = true ∧
    (searchBook exA (boot exMem exInfo) exStale {}).heard = true := by
  refine ⟨?_, ?_, ?_⟩ <;> decide +kernel

end LiCan.Stack
