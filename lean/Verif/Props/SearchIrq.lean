import Verif.Spec.SearchIrq
import Verif.Lemmas.SearchIrq
import Verif.Lemmas.StackExample
/-!
# C136: a search ended by a frame ends with the rate the frame was received at

False with the receive interrupt where it may come: a frame between the read of the variable and the change
of the rate ends the search after the change, with a rate no frame was received at.
-/
namespace LiCan
open Spec

namespace Hunt

/-- where the rate of the last frame may lie: `q` for searches without a frame in a window -/
def Near (q : Bool) (b : Book) (r : Nat) : Prop := b.heard = some r ∨ q = false ∧ b.heard = some b.before

structure Sync (s : Stack) : Prop where
  proc : s.rc.process = true
  st : s.rc.state = .on ∨ s.rc.state = .idle
  rate : Rate s.rc.back
  back : s.rc.back = s.slv.link.hwRate

theorem Sync.ne {s : Stack} (h : Sync s) : s.rc.state ≠ .off := by
  rcases h.st with e | e <;> rw [e] <;> decide

def Inv (q : Bool) (h : Hunt) (b : Book) : Prop :=
  match h.todo with
  | none => h.s.rc.state = .off ∨ Sync h.s ∧ (h.s.rc.pending = .msg → Near q b h.s.slv.link.hwRate)
  | some (.process _ intid _) => Sync h.s ∧ (intid = .msg → Near q b h.s.slv.link.hwRate) ∧
      (intid ≠ .msg → h.s.rc.pending = .msg → q = false ∧ b.heard = some h.s.slv.link.hwRate)
  | some (.on _) => h.s.rc.state = .on ∧ (h.s.rc.pending = .msg → q = false ∧ b.heard = some h.s.slv.link.hwRate)

theorem rcOn_again (env : AEnv) (s : Stack) (now : Nat) (hs : s.rc.state = .on) :
    Sync (s.rcOn env now false) ∧ (s.rcOn env now false).rc.pending = s.rc.pending ∧
      (s.rcOn env now false).slv.link.storedN ≠ s.slv.link.storedN := by
  unfold Stack.rcOn
  dsimp only
  rw [if_neg (by decide)]
  obtain ⟨e1, -, e3, -, -, e6, -⟩ := Stack.nextBaud_spec env ({ s with lcsa := .reconnect }.setR fun c => { c with bit0 := 0 }) now
  generalize Stack.nextBaud env _ now = w at *
  have e1' : (w.setR fun c => { c with process := true }).rc = { w.rc with process := true } := rfl
  refine ⟨⟨rfl, ?_, ?_, ?_⟩, ?_, ?_⟩
  · rw [e1', e1]; exact .inl hs
  · rw [e1', e1]; exact Stack.tab_rate (Stack.succ4_lt _)
  · rw [e1', e1]; exact e3.symm
  · rw [e1', e1]; rfl
  · show w.slv.link.storedN ≠ _
    rw [e6]
    exact Nat.succ_ne_self _

theorem inv_step (env : AEnv) (q : Bool) {h : Hunt} {b : Book} (e : HEv) (hi : Inv q h b)
    (hq : q = true → e = .msg → h.todo = none) : Inv q (h.step env e) (b.next e h (h.step env e)) := by
  obtain ⟨s, todo⟩ := h
  cases todo with
  | none =>
    have hi : s.rc.state = .off ∨ Sync s ∧ (s.rc.pending = .msg → Near q b s.slv.link.hwRate) := hi
    have keep : ∀ e' : HEv, e' ≠ .msg → Inv q ⟨s, none⟩ (b.next e' ⟨s, none⟩ ⟨s, none⟩) := by
      intro e' he
      rcases hi with h | ⟨h1, h2⟩
      · exact .inl h
      · refine .inr ⟨h1, fun hp => ?_⟩
        rw [show b.next e' ⟨s, none⟩ ⟨s, none⟩ = b by
          unfold Book.next
          rw [if_neg h1.ne, if_neg he, if_pos rfl]]
        exact h2 hp
    cases e with
    | error now cause =>
      simp only [step]
      split
      · refine ⟨rfl, fun hp => ?_⟩
        exact absurd (show Pending.lec = .msg from hp) (by decide)
      · exact keep _ (by intro h; cases h)
    | look now lec =>
      simp only [step]
      split
      · next hne =>
        rcases hi with h | ⟨h1, h2⟩
        · exact absurd h hne
        · have eb : b.next (.look now lec) ⟨s, none⟩ ⟨s, some (.process now s.rc.pending lec)⟩ = b := by
            unfold Book.next
            rw [if_neg h1.ne, if_neg (by intro h; cases h), if_pos rfl]
          rw [eb]
          exact ⟨h1, h2, fun a b => absurd b a⟩
      · exact keep _ (by intro h; cases h)
    | go => exact keep _ (by intro h; cases h)
    | msg =>
      rcases hi with h | ⟨h1, h2⟩
      · exact .inl h
      · refine .inr ⟨⟨h1.proc, h1.st, h1.rate, h1.back⟩, fun _ => .inl ?_⟩
        show (if s.rc.state = .off then none else if HEv.msg = .msg then some s.slv.link.hwRate else b.heard) = some s.slv.link.hwRate
        rw [if_neg h1.ne, if_pos rfl]
  | some t =>
    cases t with
    | process now intid lec =>
      obtain ⟨h1, h2, h3⟩ : Sync s ∧ (intid = .msg → Near q b s.slv.link.hwRate) ∧
        (intid ≠ .msg → s.rc.pending = .msg → q = false ∧ b.heard = some s.slv.link.hwRate) := hi
      have same : ∀ e', e' ≠ HEv.msg → b.next e' ⟨s, some (.process now intid lec)⟩ ⟨s, some (.process now intid lec)⟩ = b := by
        intro e' he
        unfold Book.next
        rw [if_neg h1.ne, if_neg he, if_pos rfl]
      cases e with
      | error n c =>
        simp only [step]
        rw [same _ (by intro h; cases h)]
        exact ⟨h1, h2, h3⟩
      | look n l =>
        simp only [step]
        rw [same _ (by intro h; cases h)]
        exact ⟨h1, h2, h3⟩
      | msg =>
        have hh : (b.next .msg ⟨s, some (.process now intid lec)⟩ (step env ⟨s, some (.process now intid lec)⟩ .msg)).heard =
            some s.slv.link.hwRate := by
          show (if s.rc.state = .off then none else if HEv.msg = .msg then some s.slv.link.hwRate else b.heard) = some s.slv.link.hwRate
          rw [if_neg h1.ne, if_pos rfl]
        have hqf : q = false := by
          cases q with
          | false => rfl
          | true => cases hq rfl rfl
        exact ⟨⟨h1.proc, h1.st, h1.rate, h1.back⟩, fun _ => .inl hh, fun _ _ => ⟨hqf, hh⟩⟩
      | go =>
        have hb : ∀ s' : Stack, (b.next .go ⟨s, some (.process now intid lec)⟩ ⟨s', none⟩) =
            { heard := b.heard, before := if s'.slv.link.storedN = s.slv.link.storedN then b.before else s.slv.link.hwRate } := by
          intro s'
          unfold Book.next
          rw [if_neg h1.ne, if_neg (by decide)]
        have hT := Stack.rcProcess_turn env s now intid lec (.inr h1.st) h1.proc
        simp only [step]
        rw [hb]
        generalize s.rcProcess env now intid lec = s' at hT
        cases hT with
        | ended c w h =>
          left
          show s'.rc.state = .off
          rw [h, (Stack.rcOff_spec env _ now).1]
        | switched st c b' k hst hrc hm hl hw hs hn hlc hlog =>
          right
          refine ⟨⟨?_, ?_, ?_, ?_⟩, fun hp => ?_⟩
          · show s'.rc.process = true
            rw [hrc]; exact h1.proc
          · show s'.rc.state = .on ∨ s'.rc.state = .idle
            rw [hrc]
            rcases hst with ⟨a, -⟩ | ⟨-, a, -⟩
            · rcases h1.st with e | e <;> rw [a] at e <;> cases e
            · exact .inr a
          · show Rate s'.rc.back
            rw [hrc]; exact Stack.tab_rate (Stack.succ4_lt _)
          · show s'.rc.back = s'.slv.link.hwRate
            rw [hrc, hw]
          · have hp' : s.rc.pending = .msg := by
              have : s'.rc.pending = .msg := hp
              rw [hrc] at this
              exact this
            obtain ⟨a, c⟩ := h3 hm hp'
            refine .inr ⟨a, ?_⟩
            show b.heard = some (if s'.slv.link.storedN = s.slv.link.storedN then b.before else s.slv.link.hwRate)
            rw [if_neg (by rw [hn]; exact Nat.succ_ne_self _)]
            exact c
        | same st b' k hst hk h =>
          right
          subst h
          rw [show (if (s.setR fun c => { c with state := st, bit0 := b', idle := k }).slv.link.storedN = s.slv.link.storedN
            then b.before else s.slv.link.hwRate) = b.before from if_pos rfl]
          refine ⟨⟨h1.proc, ?_, h1.rate, h1.back⟩, fun hp => ?_⟩
          · show st = .on ∨ st = .idle
            rcases hst with e | ⟨-, e⟩
            · rw [← e]; exact h1.st
            · exact .inl e
          · by_cases hm : intid = .msg
            · exact h2 hm
            · exact .inl (h3 hm hp).2
    | on now =>
      obtain ⟨h1, h2⟩ : s.rc.state = .on ∧ (s.rc.pending = .msg → q = false ∧ b.heard = some s.slv.link.hwRate) := hi
      have hne : s.rc.state ≠ .off := by rw [h1]; decide
      have same : ∀ e', e' ≠ HEv.msg → b.next e' ⟨s, some (.on now)⟩ ⟨s, some (.on now)⟩ = b := by
        intro e' he
        unfold Book.next
        rw [if_neg hne, if_neg he, if_pos rfl]
      cases e with
      | error n c =>
        simp only [step]
        rw [same _ (by intro h; cases h)]
        exact ⟨h1, h2⟩
      | look n l =>
        simp only [step]
        rw [same _ (by intro h; cases h)]
        exact ⟨h1, h2⟩
      | msg =>
        refine ⟨h1, fun _ => ⟨?_, ?_⟩⟩
        · cases q with
          | false => rfl
          | true => cases hq rfl rfl
        · show (if s.rc.state = .off then none else if HEv.msg = .msg then some s.slv.link.hwRate else b.heard) = some s.slv.link.hwRate
          rw [if_neg hne, if_pos rfl]
      | go =>
        obtain ⟨a, c, d⟩ := rcOn_again env s now h1
        simp only [step]
        refine .inr ⟨a, fun hp => ?_⟩
        obtain ⟨x, y⟩ := h2 (c.symm.trans hp)
        refine .inr ⟨x, ?_⟩
        show (if s.rc.state = .off then none else if HEv.go = .msg then some s.slv.link.hwRate else b.heard) =
          some (if (s.rcOn env now false).slv.link.storedN = s.slv.link.storedN then b.before else s.slv.link.hwRate)
        rw [if_neg hne, if_neg (by decide), if_neg d]
        exact y

theorem inv_run (env : AEnv) (q : Bool) (es : List HEv) : ∀ (h : Hunt) (b : Book), Inv q h b →
    (q = true → Undisturbed env h es) → Inv q (hunt env h b es).1 (hunt env h b es).2 := by
  induction es with
  | nil => intro h b hi _; exact hi
  | cons e es ih =>
    intro h b hi hq
    exact ih _ _ (inv_step env q e hi fun a => (hq a).1) fun a => (hq a).2

/-- a search that ends because of a frame -/
theorem ends (env : AEnv) (q : Bool) {h : Hunt} {b : Book} (hi : Inv q h b) {now : Nat} {lec : Lec}
    (ht : h.todo = some (.process now .msg lec)) :
    Near q b (h.step env .go).s.slv.link.hwRate := by
  obtain ⟨s, todo⟩ := h
  subst ht
  obtain ⟨h1, h2, -⟩ : Sync s ∧ (Pending.msg = .msg → Near q b s.slv.link.hwRate) ∧ _ := hi
  have hT := Stack.rcProcess_turn env s now .msg lec (.inr h1.st) h1.proc
  show Near q b (s.rcProcess env now .msg lec).slv.link.hwRate
  generalize s.rcProcess env now .msg lec = s' at hT
  cases hT with
  | ended c w h =>
    have hb : c.back = s.rc.back := by
      cases w with
      | suMsg h hm hc => rw [hc]
      | suTime h hm => exact absurd rfl hm
      | msg h hm hc => rw [hc]
      | noErr h hm => cases hm
      | bit0 h hl hb hc => rw [hc]
      | undef h hl hm => cases hm
    rw [h, (Stack.rcOff_spec env _ now).2.2.1]
    show Near q b (if Rate c.back then c.back else _)
    rw [hb, if_pos h1.rate, h1.back]
    exact h2 rfl
  | switched st c b' k hst hrc hm => exact absurd rfl hm
  | same st b' k hst hk h => subst h; exact h2 rfl

end Hunt

/-- **C136.**  No frame comes while the background is between reading the variable and acting on it: when the
search acts on a frame, the controller has the rate the last frame was received at (`hwRate` after the step,
in particular if the step ends the search).  The full claim, without `Undisturbed`, is false
(`C136_counterexample`). -/
theorem C136_partial (env : AEnv) (h : Hunt) (hoff : h.s.rc.state = .off) (ht : h.todo = none) (es : List Hunt.HEv)
    (hu : Undisturbed env h es) (now : Nat) (lec : Lec)
    (hm : (hunt env h {} es).1.todo = some (.process now .msg lec)) :
    (hunt env h {} es).2.heard = some ((hunt env h {} es).1.step env .go).s.slv.link.hwRate := by
  have hi : Hunt.Inv true h {} := by unfold Hunt.Inv; rw [ht]; exact .inl hoff
  rcases Hunt.ends env true (Hunt.inv_run env true es h {} hi fun _ => hu) hm with a | ⟨a, -⟩
  · exact a
  · cases a

/-- **C136**, in all cases: a search that acts on a frame has the rate the last frame was received at, or that
frame came just before the last change of the rate. -/
theorem C136_one_back (env : AEnv) (h : Hunt) (hoff : h.s.rc.state = .off) (ht : h.todo = none) (es : List Hunt.HEv)
    (now : Nat) (lec : Lec) (hm : (hunt env h {} es).1.todo = some (.process now .msg lec)) :
    (hunt env h {} es).2.heard = some ((hunt env h {} es).1.step env .go).s.slv.link.hwRate ∨
    (hunt env h {} es).2.heard = some (hunt env h {} es).2.before := by
  have hi : Hunt.Inv false h {} := by unfold Hunt.Inv; rw [ht]; exact .inl hoff
  rcases Hunt.ends env false (Hunt.inv_run env false es h {} hi fun h => nomatch h) hm with a | ⟨-, a⟩
  · exact .inl a
  · exact .inr a

/-- a search: bus off, first rate 1000 kBit/s; errors there -/
def huntStart : List Hunt.HEv := [.error 100 .boff, .go]

/-- errors are seen, a frame comes in between, the rate is changed; then the waiting time of the new rate -/
def huntLate : List Hunt.HEv := huntStart ++ [.look 5000 .form, .msg, .go, .look 5001 .form, .go, .look 5002 .form, .go,
  .look 5003 .form, .go, .look 5004 .form]

/-- the frame comes before the error handler runs -/
def huntFine : List Hunt.HEv := huntStart ++ [.look 101 .form, .go, .msg, .look 5000 .form]

/-- the hypotheses of `C136_partial` are met; the search ends with the rate of the frame -/
example : Stack.exS.rc.state = .off ∧ Undisturbed Stack.exA ⟨Stack.exS, none⟩ huntFine ∧
    (hunt Stack.exA ⟨Stack.exS, none⟩ {} huntFine).1.todo = some (.process 5000 .msg .form) ∧
    ((hunt Stack.exA ⟨Stack.exS, none⟩ {} huntFine).1.step Stack.exA .go).s.rc.state = .off ∧
    ((hunt Stack.exA ⟨Stack.exS, none⟩ {} huntFine).1.step Stack.exA .go).s.slv.link.hwRate = 1000 ∧
    (hunt Stack.exA ⟨Stack.exS, none⟩ {} huntFine).2.heard = some 1000 := by
  refine ⟨by decide +kernel, ⟨nofun, nofun, nofun, nofun, fun _ => ?_, nofun, trivial⟩, by decide +kernel, by decide +kernel,
    by decide +kernel, by decide +kernel⟩
  decide +kernel

/-- **C136** is false in general: the only frame of the search is received at 1000 kBit/s, between the error
handler's read of the variable and the change to 500 kBit/s.  The search ends because of that frame, with
500 kBit/s, although errors only were seen there. -/
theorem C136_counterexample :
    Stack.exS.rc.state = .off ∧
    (hunt Stack.exA ⟨Stack.exS, none⟩ {} huntLate).1.todo = some (.process 5004 .msg .form) ∧
    (hunt Stack.exA ⟨Stack.exS, none⟩ {} huntLate).2 = ⟨some 1000, 1000⟩ ∧
    ((hunt Stack.exA ⟨Stack.exS, none⟩ {} huntLate).1.step Stack.exA .go).s.rc.state = .off ∧
    ((hunt Stack.exA ⟨Stack.exS, none⟩ {} huntLate).1.step Stack.exA .go).s.slv.link.hwRate = 500 ∧
    ((hunt Stack.exA ⟨Stack.exS, none⟩ {} huntLate).1.step Stack.exA .go).s.slv.link.mode = .operational := by
  decide +kernel

/-- Without the frame the same events leave the search on: it is the frame that ends it. -/
theorem C136_counterexample_cause :
    ((hunt Stack.exA ⟨Stack.exS, none⟩ {} (huntLate.filter (· ≠ .msg))).1.step Stack.exA .go).s.rc.state ≠ .off := by
  decide +kernel

/-- C136, the steps belong to the functions: without an interrupt between them they do what the error functions and the search of the whole
stack do (`Model/Reconnect`); a further error during a search, or after a stop, does nothing. -/
theorem C136_uninterrupted (env : AEnv) (h : Hunt) (ht : h.todo = none) (now : Nat) (cause : RCause) (lec : Lec) :
    (h.step env (.error now cause)).step env .go = ⟨h.s.rcError env now cause, none⟩ ∧
    (h.step env (.look now lec)).step env .go =
      ⟨if h.s.rc.state ≠ .off then h.s.rcProcess env now h.s.rc.pending lec else h.s, none⟩ ∧
    (h.s.rc.state ≠ .off ∨ h.s.lcsa = .stopped → h.step env (.error now cause) = h) := by
  obtain ⟨s, t⟩ := h
  cases ht
  refine ⟨?_, ?_, fun k => ?_⟩
  · show Hunt.step env (if s.rc.state = .off ∧ s.lcsa ≠ .stopped then ⟨s.rcErrorA env cause, some (.on now)⟩ else ⟨s, none⟩) .go = _
    unfold Stack.rcError
    by_cases c : s.rc.state = .off ∧ s.lcsa ≠ .stopped
    · rw [if_pos c, if_pos c]; rfl
    · rw [if_neg c, if_neg c]; rfl
  · show Hunt.step env (if s.rc.state ≠ .off then ⟨s, some (.process now s.rc.pending lec)⟩ else ⟨s, none⟩) .go = _
    by_cases c : s.rc.state ≠ .off
    · rw [if_pos c]; simp only [if_pos c]; rfl
    · rw [if_neg c]; simp only [if_neg c]; rfl
  · show (if s.rc.state = .off ∧ s.lcsa ≠ .stopped then (⟨s.rcErrorA env cause, some (.on now)⟩ : Hunt) else ⟨s, none⟩) = _
    rw [if_neg]
    rintro ⟨a, b⟩
    exact k.elim (fun k => k a) b

/-- a search that is on: the second error does nothing -/
example : (Stack.exS.rcError Stack.exA 5000 .boff).rc.state ≠ .off ∧
    (Stack.exS.rcError Stack.exA 5000 .boff).lcsa ≠ .stopped := by decide +kernel

end LiCan
