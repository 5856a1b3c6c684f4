import Verif.Lemmas.Calm
import Verif.Spec.Search
/-! # The reported state and the callbacks of the search -/
namespace LiCan
namespace Stack
open Spec
open Node (exMem)

variable {env : AEnv}

theorem track_append (a b : List Note) : ∀ o, track o (a ++ b) = (track o a).bind fun o' => track o' b := by
  induction a with
  | nil => exact fun o => rfl
  | cons x a ih =>
    intro o
    cases o with
    | none =>
      cases x with
      | begins k => exact ih _
      | ends k b => rfl
    | some k =>
      cases x with
      | begins k => rfl
      | ends k' b =>
        simp only [List.cons_append, track]
        split
        · exact ih _
        · rfl

theorem told_eq (s : Stack) : told s = (notes s).reverse.filterMap noteOf := by
  unfold told notes
  rw [List.filterMap_reverse, List.filterMap_reverse]
  congr 1
  show List.filterMap noteOfEv (logOf s) = _
  induction logOf s with
  | nil => rfl
  | cons e l ih =>
    cases e with
    | app c =>
      rw [show Slave.apps (.app c :: l) = c :: Slave.apps l from rfl, List.filterMap_cons, List.filter_cons]
      cases c <;> first | exact ih | exact congrArg (List.cons _) ih
    | _ => exact ih

theorem told_notes {s s' : Stack} {l : List ACall} (h : notes s' = l ++ notes s) :
    told s' = told s ++ l.reverse.filterMap noteOf := by
  rw [told_eq, told_eq, h, List.reverse_append, List.filterMap_append]

/-- the kind of a search with a cause -/
def ofCause : RCause → Search
  | .ewrn | .boff => .online
  | _ => .startup

/-- the search running -/
def phase (s : Stack) : Option Search := if Searching s then some (ofCause s.rc.cause) else none

/-- a search is either off or processed -/
def Proc (s : Stack) : Prop := s.rc.state = .off ∨ Searching s ∧ s.rc.process = true

/-- the callbacks are the same -/
def Cbs (s s' : Stack) : Prop :=
  s'.rc.onStart = s.rc.onStart ∧ s'.rc.onStop = s.rc.onStop ∧ s'.rc.suStart = s.rc.suStart ∧ s'.rc.suStop = s.rc.suStop

/-- the state reported after a search -/
def endState : Search → LState
  | .startup => .init
  | .online => .running

/-- the call at the end of a search -/
def endCall (c : Recon) (k : Search) (b : Nat) : List ACall :=
  match k with
  | .startup => (c.suStop.map (ACall.suStop · b)).toList
  | .online => (c.onStop.map (ACall.onStop · b)).toList

theorem phase_off {s : Stack} (h : s.rc.state = .off) : phase s = none := if_neg (not_searching h)

theorem phase_rc {s s' : Stack} (h : s'.rc = s.rc) : phase s' = phase s := by
  have : Searching s' ↔ Searching s := by unfold Searching; rw [h]
  unfold phase
  by_cases hs : Searching s
  · rw [if_pos hs, if_pos (this.2 hs), h]
  · rw [if_neg hs, if_neg (fun h => hs (this.1 h))]

theorem Proc.rc {s s' : Stack} (h : s'.rc = s.rc) (hp : Proc s) : Proc s' := by
  unfold Proc Searching; rw [h]; exact hp

/-- `can_reconnect_off`: the reported state and the log -/
theorem rcOff_state (env : AEnv) (s : Stack) (now : Nat) :
    ((s.rcOff env now).lcsa = (if s.rc.cause = .download then .init else endState (ofCause s.rc.cause)) ∧
      logOf (s.rcOff env now) = stopCall s.rc s.rc.back ++ logOf s) ∨
    (¬ (∀ k, env.modeOk k = true) ∧ (s.rcOff env now).lcsa = s.lcsa ∧ logOf (s.rcOff env now) = logOf s) := by
  obtain ⟨m1, m2, m3, m4, m5, m6⟩ := Slave.setMode_mode env.toEnv s.slv.link .stopped
  have key : ∀ r1 : Stack × Err, r1 = ((s.setR fun c => { c with process := false }).nodeMode env .stopped).1.baudRate env s.rc.back →
      r1.2 = E.ok ∧ r1.1.rc = { s.rc with process := false } ∧ logOf r1.1 = logOf s ∧ r1.1.lcsa = s.lcsa := by
    rintro r1 rfl
    have hr : (((s.setR fun c => { c with process := false }).nodeMode env .stopped).1.baudRate env s.rc.back).2 =
        (Slave.setBaud (Slave.setMode env.toEnv s.slv.link .stopped).1 s.rc.back).2 := rfl
    rw [hr]
    by_cases h : Rate s.rc.back
    · rw [Slave.setBaud_stopped _ _ m1 h]
      exact ⟨rfl, rfl, rfl, rfl⟩
    · rw [Slave.setBaud_other _ _ h]
      exact ⟨rfl, rfl, rfl, rfl⟩
  unfold Stack.rcOff
  dsimp only
  obtain ⟨h1, h2, h3, h4⟩ := key _ rfl
  rw [if_pos h1]
  generalize ((s.setR fun c => { c with process := false }).nodeMode env .stopped).1.baudRate env s.rc.back = r at *
  have hrc : (r.1.nodeMode env .operational).1.rc = r.1.rc := rfl
  have hlg : logOf (r.1.nodeMode env .operational).1 = logOf r.1 := rfl
  have hlc : (r.1.nodeMode env .operational).1.lcsa = r.1.lcsa := rfl
  have hd : (∀ k, env.modeOk k = true) → (r.1.nodeMode env .operational).2 = E.ok := fun h =>
    (Slave.setMode_ok h r.1.slv.link .operational).1
  generalize r.1.nodeMode env .operational = q at *
  by_cases hq : q.2 = E.ok
  · rw [if_pos hq, if_pos hq]
    left
    generalize hw : ({ q.1 with lcsa := .running }.setR fun c => { c with state := .off, nr := u16 (c.nr + 1) }) = w
    have w1 : w.rc.cause = s.rc.cause := by rw [← hw]; show q.1.rc.cause = _; rw [hrc, h2]
    have w2 : stopCall w.rc s.rc.back = stopCall s.rc s.rc.back := by
      rw [← hw]
      show stopCall { q.1.rc with state := .off, nr := _ } _ = _
      rw [hrc, h2]; rfl
    have w3 : logOf w = logOf s := by rw [← hw]; exact hlg.trans h3
    refine ⟨?_, ?_⟩
    · show (w.rcDone env s.rc.back).lcsa = _
      have rl : ∀ (t : Stack) (e : Option Err), (t.reportUnaware env e).lcsa = t.lcsa := by
        intro t e; unfold Stack.reportUnaware; split
        · rfl
        · split <;> rfl
      have nl : ∀ (t : Stack) (f : Option Nat) (c : Nat → ACall), (t.notify f c).lcsa = t.lcsa := by
        intro t f c; unfold Stack.notify; split <;> rfl
      unfold Stack.rcDone
      rw [w1]
      cases s.rc.cause <;> dsimp only <;> first | rfl | (rw [nl, rl]; rfl) | (rw [nl]; rfl)
    · show logOf (w.rcDone env s.rc.back) = _
      rw [(rcDone_spec env w s.rc.back).2, w2, w3]
  · rw [if_neg hq, if_neg hq]
    right
    exact ⟨fun h => hq (hd h), hlc.trans h4, hlg.trans h3⟩

theorem notes_log {s s' : Stack} {l : List ACall} (hl : ∀ c ∈ l, ofSearch c = true)
    (h : logOf s' = l.map Ev.app ++ logOf s) : notes s' = l ++ notes s := by
  unfold notes
  rw [h, Slave.apps_append, List.filter_append]
  congr 1
  clear h
  induction l with
  | nil => rfl
  | cons c l ih =>
    rw [List.map_cons, show Slave.apps (.app c :: l.map Ev.app) = c :: Slave.apps (l.map Ev.app) from rfl,
      List.filter_cons, if_pos (hl c (List.mem_cons_self ..)), ih (fun c hc => hl c (List.mem_cons_of_mem _ hc))]

theorem stopCall_eq (c : Recon) (b : Nat) (h : c.cause ≠ .download) :
    stopCall c b = (endCall c (ofCause c.cause) b).map Ev.app ∧ ∀ x ∈ endCall c (ofCause c.cause) b, ofSearch x = true := by
  unfold stopCall endCall
  cases hc : c.cause with
  | download => exact absurd hc h
  | startup =>
    dsimp only [ofCause]
    cases c.suStop with
    | none => exact ⟨rfl, fun x h => nomatch h⟩
    | some f => exact ⟨rfl, fun x h => by rw [List.mem_singleton.1 h]; rfl⟩
  | noTraffic =>
    dsimp only [ofCause]
    cases c.suStop with
    | none => exact ⟨rfl, fun x h => nomatch h⟩
    | some f => exact ⟨rfl, fun x h => by rw [List.mem_singleton.1 h]; rfl⟩
  | ewrn =>
    dsimp only [ofCause]
    cases c.onStop with
    | none => exact ⟨rfl, fun x h => nomatch h⟩
    | some f => exact ⟨rfl, fun x h => by rw [List.mem_singleton.1 h]; rfl⟩
  | boff =>
    dsimp only [ofCause]
    cases c.onStop with
    | none => exact ⟨rfl, fun x h => nomatch h⟩
    | some f => exact ⟨rfl, fun x h => by rw [List.mem_singleton.1 h]; rfl⟩

/-- what a processing does to the search, the state reported and the callbacks -/
inductive Did (env : AEnv) (s s' : Stack) : Prop
  /-- nothing, or the first error of a search at startup -/
  | goes (hp : phase s' = phase s) (hn : notes s' = notes s)
      (hl : s'.lcsa = s.lcsa ∨ phase s = some .startup ∧ s'.lcsa = .reconnect)
  /-- an online search begins -/
  | begins (h0 : phase s = none) (hp : phase s' = some .online)
      (hn : notes s' = (s.rc.onStart.map ACall.onStart).toList ++ notes s) (hl : s'.lcsa = .reconnect)
  /-- a search ends -/
  | ends (k : Search) (b : Nat) (h0 : phase s = some k) (hp : phase s' = none) (hn : notes s' = endCall s.rc k b ++ notes s)
      (hl : s'.lcsa = endState k)
  /-- a search ends with the driver refusing -/
  | refused (k : Search) (h0 : phase s = some k) (hp : phase s' = none) (hr : ¬ ∀ k, env.modeOk k = true)
      (hn : notes s' = notes s) (hl : s'.lcsa = s.lcsa)

/-- the cause of a search is never a download, and that at startup is of its kind -/
def CauseOk (s : Stack) : Prop :=
  (Searching s → s.rc.cause ≠ .download) ∧ (s.rc.state = .startup → ofCause s.rc.cause = .startup)

theorem CauseOk.off {s : Stack} (h : s.rc.state = .off) : CauseOk s :=
  ⟨fun k => absurd k (not_searching h), fun k => by rw [h] at k; cases k⟩

theorem CauseOk.rc {s s' : Stack} (h : s'.rc = s.rc) (hp : CauseOk s) : CauseOk s' := by
  unfold CauseOk Searching; rw [h]; exact hp

theorem Did.of_turn {s s' : Stack} {now : Nat} {intid : Pending} {lec : Lec} (hs : Searching s) (hc : CauseOk s)
    (hp : s.rc.process = true)
    (t : Turn env now intid lec s s') : Did env s s' ∧ Cbs s s' ∧ Proc s' ∧ CauseOk s' := by
  have ph : phase s = some (ofCause s.rc.cause) := if_pos hs
  cases t with
  | ended c w e =>
    have e1 := (rcOff_spec env (s.setR fun _ => c) now).1
    rw [← e] at e1
    have so : s'.rc.state = .off := by rw [e1]
    have hcc : ofCause c.cause = ofCause s.rc.cause ∧ c.cause ≠ .download ∧
        (c.suStop = s.rc.suStop ∧ c.onStop = s.rc.onStop ∧ c.suStart = s.rc.suStart ∧ c.onStart = s.rc.onStart) := by
      have same : (s.rc.suStop = s.rc.suStop ∧ s.rc.onStop = s.rc.onStop ∧ s.rc.suStart = s.rc.suStart ∧ s.rc.onStart = s.rc.onStart) :=
        ⟨rfl, rfl, rfl, rfl⟩
      cases w with
      | suMsg h hm hq => subst hq; exact ⟨(hc.2 h).symm, (fun h => nomatch h), same⟩
      | suTime h hm ht hq => subst hq; exact ⟨(hc.2 h).symm, (fun h => nomatch h), same⟩
      | msg h hm hq => subst hq; exact ⟨rfl, hc.1 hs, same⟩
      | noErr h hm hl hq => subst hq; exact ⟨rfl, hc.1 hs, same⟩
      | bit0 h hl hb hq => subst hq; exact ⟨rfl, hc.1 hs, same⟩
      | undef h hl hm hq => subst hq; exact ⟨rfl, hc.1 hs, same⟩
    obtain ⟨c1, c2, c3, c4, c5, c6⟩ := hcc
    refine ⟨?_, ⟨by rw [e1]; exact c6, by rw [e1]; exact c4, by rw [e1]; exact c5, by rw [e1]; exact c3⟩, .inl so,
      .off so⟩
    rcases rcOff_state env (s.setR fun _ => c) now with ⟨h1, h2⟩ | ⟨h0, h1, h2⟩
    · rw [← e] at h1 h2
      refine .ends _ c.back ph (phase_off so) ?_ ?_
      · obtain ⟨k1, k2⟩ := stopCall_eq c c.back c2
        have : endCall s.rc (ofCause s.rc.cause) c.back = endCall c (ofCause c.cause) c.back := by
          unfold endCall; rw [c1, c3, c4]
        rw [this]
        refine notes_log k2 ?_
        rw [h2]
        show stopCall c c.back ++ logOf s = _
        rw [k1]
      · rw [h1]
        show (if c.cause = .download then _ else endState (ofCause c.cause)) = _
        rw [if_neg c2, c1]
    · rw [← e] at h1 h2
      exact .refused _ ph (phase_off so) h0 (notes_of_log h2) h1
  | switched st c b k hst hrc hm hl hw hss hn hlc hlog =>
    have hs' : Searching s' := by
      unfold Searching
      rw [hrc]
      rcases hst with ⟨-, ⟨e, -⟩ | ⟨e, -⟩⟩ | ⟨-, e, -⟩ <;> rw [e]
      · exact .inl rfl
      · exact .inr (.inl rfl)
      · exact .inr (.inr rfl)
    have hcc : c ≠ .download ∧ ofCause c = ofCause s.rc.cause := by
      rcases hst with ⟨e0, ⟨-, e⟩ | ⟨-, e⟩⟩ | ⟨-, -, -, e, -⟩
      · rw [e]; exact ⟨hc.1 hs, rfl⟩
      · rw [e]; exact ⟨by decide, (hc.2 e0).symm⟩
      · rw [e]; exact ⟨hc.1 hs, rfl⟩
    refine ⟨.goes ?_ (notes_of_log hlog) ?_, ?_, .inr ⟨hs', ?_⟩, ?_, ?_⟩
    · rw [ph]; unfold phase; rw [if_pos hs', hrc]; exact congrArg some hcc.2
    · rw [hlc]
      split
      · next h =>
        right
        rw [ph, hc.2 h.1]
        exact ⟨rfl, rfl⟩
      · exact .inl rfl
    · unfold Cbs; rw [hrc]; exact ⟨rfl, rfl, rfl, rfl⟩
    · rw [hrc]; exact hp
    · intro _; rw [hrc]; exact hcc.1
    · intro h
      rw [hrc] at h
      have h : st = .startup := h
      rw [hrc]
      show ofCause c = _
      rw [hcc.2]
      rcases hst with ⟨e0, -⟩ | ⟨-, e, -⟩
      · exact hc.2 e0
      · rw [e] at h; cases h
  | same st b k hst hk e =>
    subst e
    have hs' : st = .startup ∨ st = .on ∨ st = .idle := by
      rcases hst with e | ⟨-, e⟩
      · rw [← e]; exact hs
      · exact .inr (.inl e)
    refine ⟨.goes ?_ rfl (.inl rfl), ⟨rfl, rfl, rfl, rfl⟩, .inr ⟨hs', hp⟩, fun _ => hc.1 hs, ?_⟩
    · rw [ph]; exact if_pos hs'
    · intro h
      have h : st = .startup := h
      rcases hst with e | ⟨-, e⟩
      · exact hc.2 (e.trans h)
      · rw [e] at h; cases h

/-- what holds of the search in all histories -/
structure Srch (s : Stack) : Prop where
  proc : Proc s
  cause : CauseOk s

theorem Srch.rc {s s' : Stack} (h : s'.rc = s.rc) (hp : Srch s) : Srch s' := ⟨hp.1.rc h, hp.2.rc h⟩

theorem Did.congr {s t u s' : Stack} (h : Did env t u) (h1 : t.rc = s.rc) (h2 : Calm s t) (h3 : s'.rc = u.rc) (h4 : Calm u s') :
    Did env s s' := by
  have p1 := phase_rc h1
  have p2 := phase_rc h3
  cases h with
  | goes hp hn hl =>
    refine .goes (p2.trans (hp.trans p1)) (h4.2.trans (hn.trans h2.2)) ?_
    rcases hl with hl | ⟨a, b⟩
    · exact .inl (h4.1.trans (hl.trans h2.1))
    · exact .inr ⟨p1.symm.trans a, h4.1.trans b⟩
  | begins h0 hp hn hl =>
    refine .begins (p1.symm.trans h0) (p2.trans hp) ?_ (h4.1.trans hl)
    rw [h4.2, hn, h1, h2.2]
  | ends k b h0 hp hn hl =>
    refine .ends k b (p1.symm.trans h0) (p2.trans hp) ?_ (h4.1.trans hl)
    rw [h4.2, hn, h1, h2.2]
  | refused k h0 hp hr hn hl =>
    exact .refused k (p1.symm.trans h0) (p2.trans hp) hr (h4.2.trans (hn.trans h2.2)) (h4.1.trans (hl.trans h2.1))

/-- the start of an online search: the state reported and the callback -/
theorem rcError_state (env : AEnv) (s : Stack) (now : Nat) (cause : RCause) (h : s.rc.state = .off ∧ s.lcsa ≠ .stopped) :
    (s.rcError env now cause).lcsa = .reconnect ∧
    notes (s.rcError env now cause) = (s.rc.onStart.map ACall.onStart).toList ++ notes s := by
  unfold Stack.rcError
  rw [if_pos h]
  dsimp only
  unfold Stack.rcOn
  dsimp only
  rw [if_neg (by decide)]
  have hl := notify_log s s.rc.onStart .onStart
  have hn : notes (s.notify s.rc.onStart .onStart) = (s.rc.onStart.map ACall.onStart).toList ++ notes s := by
    refine notes_log ?_ ?_
    · cases s.rc.onStart with
      | none => exact fun x h => nomatch h
      | some f => exact fun x h => by rw [List.mem_singleton.1 h]; rfl
    · rw [hl]
      cases s.rc.onStart <;> rfl
  generalize s.notify s.rc.onStart .onStart = s0 at hn ⊢
  refine ⟨nextBaud_lcsa env _ now, ?_⟩
  rw [← hn]
  exact notes_of_log (nextBaud_log env _ now)

/-- nothing happened yet, or an online search has just begun -/
def Started (t y : Stack) : Prop :=
  (y.rc = t.rc ∧ Calm t y) ∨
  ∃ cause, (cause = .boff ∨ cause = .ewrn) ∧ y.lcsa = .reconnect ∧
    notes y = (t.rc.onStart.map ACall.onStart).toList ++ notes t ∧
    ∃ i b n, y.rc = { t.rc with
      state := .on, cause := cause, pending := .lec, bit0 := 0, process := true, idx := i, back := b, next := n }

theorem Started.link {t x y : Stack} (h : Started t x) (h1 : y.rc = x.rc) (h2 : Calm x y) : Started t y := by
  rcases h with ⟨a, b⟩ | ⟨c, a, b, d, i, k, n, e⟩
  · exact .inl ⟨h1.trans a, b.trans h2⟩
  · exact .inr ⟨c, a, h2.1.trans b, h2.2.trans d, i, k, n, h1.trans e⟩

theorem Started.error {t x : Stack} (ht : t.rc.state = .off) (h : Started t x) (now : Nat) {cause : RCause}
    (hc : cause = .boff ∨ cause = .ewrn) : Started t (x.rcError env now cause) := by
  have sp := rcError_spec env x now cause
  by_cases hs : x.rc.state = .off ∧ x.lcsa ≠ .stopped
  · rw [if_pos hs] at sp
    obtain ⟨l1, l2⟩ := rcError_state env x now cause hs
    rcases h with ⟨a, b⟩ | ⟨c, a, b, d, i, k, n, e⟩
    · have e := sp.1
      rw [a] at e
      exact .inr ⟨cause, hc, l1, by rw [l2, a, b.2], _, _, _, e⟩
    · rw [e] at hs; cases hs.1
  · rw [if_neg hs] at sp
    rw [sp]; exact h

theorem Started.hw {t : Stack} (ho : t.rc.state = .off) (now : Nat) (bus : BusState) (lec : Lec) :
    Started t ((t.hwBusOff env now bus lec).hwPassive env now bus) := by
  have k1 : Started t (t.hwBusOff env now bus lec) := by
    unfold Stack.hwBusOff
    split
    · have k0 : Started t ((t.nodeMode env .stopped).1.nodeMode env .listen).1 := .inl ⟨rfl, rfl, rfl⟩
      exact k0.error ho now (.inl rfl)
    · exact .inl ⟨rfl, .refl t⟩
  generalize t.hwBusOff env now bus lec = y at k1 ⊢
  unfold Stack.hwPassive
  split
  · have k2 : Started t { y with slv := { y.slv with link := (Slave.drvMode env.toEnv y.slv.link .listen).1 } } :=
      k1.link rfl ⟨rfl, rfl⟩
    exact k2.error ho now (.inr rfl)
  · exact k1

theorem process_did {s : Stack} (h : Srch s) (now : Nat) (bus : BusState) (lec : Lec) :
    Did env s (s.process env now bus lec) ∧ Cbs s (s.process env now bus lec) ∧ Srch (s.process env now bus lec) := by
  obtain ⟨p, hp⟩ := Slave.trigger_eq env.toEnv s.slv now
  have hk : Keep s { s with slv := { s.slv with sync := { s.slv.sync with periode := p } } } := ⟨rfl, rfl⟩
  have hc : Calm s { s with slv := { s.slv with sync := { s.slv.sync with periode := p } } } := ⟨rfl, rfl⟩
  unfold Stack.process
  rw [hp]
  dsimp only
  generalize ({ s with slv := { s.slv with sync := { s.slv.sync with periode := p } } } : Stack) = t at hk hc ⊢
  have ht := h.rc hk.1
  have k2 := Keep.processTx env (t.hwError env now bus lec) now
  have c2 := Calm.processTx env (t.hwError env now bus lec) now
  suffices g : Did env t (t.hwError env now bus lec) ∧ Cbs t (t.hwError env now bus lec) ∧ Srch (t.hwError env now bus lec) by
    refine ⟨g.1.congr hk.1 hc k2.1 c2, ?_, g.2.2.rc k2.1⟩
    have := g.2.1
    unfold Cbs at this ⊢
    rw [k2.1, ← hk.1]; exact this
  clear k2 c2 hk hc h hp
  unfold Stack.hwError
  dsimp only
  rcases ht.proc with ho | ⟨hs, hpr⟩
  · have self : Did env t t ∧ Cbs t t ∧ Srch t := ⟨.goes rfl rfl (.inl rfl), ⟨rfl, rfl, rfl, rfl⟩, ht⟩
    by_cases hc : (bus ≠ .active ∨ lec ≠ .none) ∧ t.rc.state = .off
    case neg => rw [if_neg hc, if_neg (fun e => e ho)]; exact self
    rw [if_pos hc]
    -- after the two functions that may start a search
    have key := Started.hw (env := env) ho now bus lec
    generalize (t.hwBusOff env now bus lec).hwPassive env now bus = y at key ⊢
    rcases key with ⟨k1, k2⟩ | ⟨cause, k1, k2, k3, i, b, n, k4⟩
    · rw [if_neg (fun e => e (by rw [k1]; exact ho))]
      exact ⟨.goes (phase_rc k1) k2.2 (.inl k2.1), by unfold Cbs; rw [k1]; exact ⟨rfl, rfl, rfl, rfl⟩, ht.rc k1⟩
    · have hy : y.rc.state = .on := by rw [k4]
      rw [if_pos (by rw [hy]; decide)]
      have hys : Searching y := .inr (.inl hy)
      have hyc : y.rc.cause = cause := by rw [k4]
      have hyk : ofCause cause = .online := by rcases k1 with e | e <;> rw [e] <;> rfl
      have hyc2 : CauseOk y := ⟨fun _ => by rw [hyc]; rcases k1 with e | e <;> rw [e] <;> decide, fun e => by rw [hy] at e; cases e⟩
      have hT := rcProcess_turn env y now y.rc.pending lec hys (by rw [k4])
      have hD := Did.of_turn hys hyc2 (by rw [k4]) hT
      have php : phase y = some .online := by unfold phase; rw [if_pos hys, hyc, hyk]
      have nend : Searching (y.rcProcess env now y.rc.pending lec) := by
        generalize y.rcProcess env now y.rc.pending lec = u at hT
        have hpe : y.rc.pending = .lec := by rw [k4]
        have hb0 : y.rc.bit0 = 0 := by rw [k4]
        cases hT with
        | ended c w e =>
          rw [hpe] at w
          cases w with
          | suMsg h => rw [hy] at h; cases h
          | suTime h => rw [hy] at h; cases h
          | msg h hm => cases hm
          | noErr h hm => cases hm
          | bit0 h hl hb => rw [hb0] at hb; exact absurd hb (by decide)
          | undef h hl hm => cases hm
        | switched st c b k hst hrc hm hl hw hss hn hlc hlog =>
          unfold Searching
          rw [hrc]
          rcases hst with ⟨-, ⟨e, -⟩ | ⟨e, -⟩⟩ | ⟨-, e, -⟩ <;> rw [e]
          · exact .inl rfl
          · exact .inr (.inl rfl)
          · exact .inr (.inr rfl)
        | same st b k hst hk e =>
          subst e
          show st = .startup ∨ st = .on ∨ st = .idle
          rcases hst with e | ⟨-, e⟩
          · exact .inr (.inl (e.symm.trans hy))
          · exact .inr (.inl e)
      generalize y.rcProcess env now y.rc.pending lec = u at hD nend ⊢
      obtain ⟨d1, d2, d3, d4⟩ := hD
      refine ⟨?_, ?_, d3, d4⟩
      · have cont : phase u = phase y → notes u = notes y → u.lcsa = .reconnect → Did env t u := by
          intro a b c
          exact .begins (phase_off ho) (a.trans php) (b.trans k3) c
        have pu : phase u ≠ none := by unfold phase; rw [if_pos nend]; exact fun e => nomatch e
        cases d1 with
        | goes hp hn hl =>
          refine cont hp hn ?_
          rcases hl with hl | ⟨-, hl⟩
          · exact hl.trans k2
          · exact hl
        | begins h0 => rw [php] at h0; cases h0
        | ends k b h0 hp => exact absurd hp pu
        | refused k h0 hp => exact absurd hp pu
      · unfold Cbs at d2 ⊢
        rw [k4] at d2; exact d2
  · have ho : ¬ t.rc.state = .off := fun e => not_searching e hs
    rw [if_neg (c := (bus ≠ .active ∨ lec ≠ .none) ∧ t.rc.state = .off) (fun e => ho e.2), if_pos ho]
    obtain ⟨a, b, c, d⟩ := Did.of_turn hs ht.cause hpr (rcProcess_turn env t now t.rc.pending lec hs hpr)
    exact ⟨a, b, c, d⟩

/-- what `lcsa_start` does to the search, the state reported and the callbacks -/
theorem start_did (env : AEnv) (s : Stack) (now : Nat) :
    Cbs s (s.start env now).1 ∧ Srch (s.start env now).1 ∧
    ((∀ k, env.modeOk k = true) → (s.start env now).2 = E.ok) ∧
    ((s.start env now).2 = E.ok → (s.start env now).1.lcsa = .running) ∧
    if s.lcsa = .download then phase (s.start env now).1 = none ∧ notes (s.start env now).1 = notes s
    else phase (s.start env now).1 = some .startup ∧ (s.start env now).1.slv.link.mode = .listen ∧
      notes (s.start env now).1 = (s.rc.suStart.map ACall.suStart).toList ++ notes s := by
  have key : ∀ r : Stack × Err, let r' := (if r.2 = E.ok then ({ r.1.startAck env with lcsa := .running }, E.ok) else r)
      r'.1.rc = r.1.rc ∧ r'.1.slv.link = r.1.slv.link ∧ r'.2 = r.2 ∧ (r'.2 = E.ok → r'.1.lcsa = .running) ∧ notes r'.1 = notes r.1 := by
    intro r
    dsimp only
    split
    · next h =>
      obtain ⟨a, b⟩ := startAck_keep env r.1
      refine ⟨a, b, h.symm, fun _ => rfl, ?_⟩
      show notes (r.1.startAck env) = _
      unfold Stack.startAck
      split
      · exact ((Quiet.refl r.1).endA env r.1.info.d.comp.nr).calm.2
      · rfl
    · next h => exact ⟨rfl, rfl, rfl, fun e => absurd e h, rfl⟩
  unfold Stack.start
  dsimp only
  by_cases hd : s.lcsa = .download
  · rw [if_pos hd, if_pos hd]
    generalize hq : Stack.nodeMode env _ .operational = q
    have q1 : q.1.rc = { s.rc with state := .off, cause := .download } := by rw [← hq]; rfl
    have q2 : notes q.1 = notes s := by rw [← hq]; rfl
    have q3 : (∀ k, env.modeOk k = true) → q.2 = E.ok := by
      intro h; rw [← hq]; exact (Slave.setMode_ok h _ .operational).1
    have k : ∀ r : Stack × Err, r.1.rc = { s.rc with state := .off, cause := .download } → notes r.1 = notes s →
        ((∀ k, env.modeOk k = true) → r.2 = E.ok) →
        let r' := (if r.2 = E.ok then ({ r.1.startAck env with lcsa := .running }, E.ok) else r)
        Cbs s r'.1 ∧ Srch r'.1 ∧ ((∀ k, env.modeOk k = true) → r'.2 = E.ok) ∧ (r'.2 = E.ok → r'.1.lcsa = .running) ∧
        phase r'.1 = none ∧ notes r'.1 = notes s := by
      intro r h1 h2 h3
      obtain ⟨a, -, b, c, d⟩ := key r
      dsimp only at a b c d ⊢
      generalize (if r.2 = E.ok then ({ r.1.startAck env with lcsa := .running }, E.ok) else r) = r' at *
      have so : r'.1.rc.state = .off := by rw [a, h1]
      refine ⟨?_, ⟨.inl so, .off so⟩, fun h => b.trans (h3 h), c, phase_off so, d.trans h2⟩
      unfold Cbs; rw [a, h1]; exact ⟨rfl, rfl, rfl, rfl⟩
    refine k _ ?_ ?_ ?_
    · split
      · exact q1
      · exact q1
    · split
      · exact q2
      · exact q2
    · split
      · exact q3
      · exact q3
  · rw [if_neg hd, if_neg hd]
    generalize hs2 : (Stack.baudRate env (Stack.nodeMode env (s.setR fun c => { c with state := .startup }) .stopped).1 _).1 = s2
    have h2 : s2.rc = { s.rc with state := .startup } := by rw [← hs2]; rfl
    have n2 : notes s2 = notes s := by rw [← hs2]; rfl
    have h4 : (∃ tm i n, (s2.rcStartup env now).rc = { s.rc with
          state := .startup, process := true, pending := .none, cause := .noTraffic, bit0 := 0, idx := i, next := n, time := tm }) ∧
        notes (s2.rcStartup env now) = (s.rc.suStart.map ACall.suStart).toList ++ notes s := by
      unfold Stack.rcStartup
      rw [if_pos (by rw [h2])]
      dsimp only
      have hk := notify_keep s2 s2.rc.suStart .suStart
      have hl := notify_log s2 s2.rc.suStart .suStart
      have hn : notes (s2.notify s2.rc.suStart .suStart) = (s.rc.suStart.map ACall.suStart).toList ++ notes s := by
        rw [← n2]
        refine notes_log ?_ ?_
        · cases s.rc.suStart with
          | none => exact fun x h => nomatch h
          | some f => exact fun x h => by rw [List.mem_singleton.1 h]; rfl
        · rw [hl, h2]
          cases s.rc.suStart <;> rfl
      generalize s2.notify s2.rc.suStart .suStart = s3 at hk hn ⊢
      unfold Stack.rcOn
      dsimp only
      rw [if_pos rfl]
      refine ⟨⟨u32 (now + env.ms2t env.suTime), 0, u32 (now + env.ms2t env.swTime), ?_⟩, hn⟩
      show { s3.rc with process := true, pending := .none, cause := .noTraffic, bit0 := 0, idx := 0,
                        next := u32 (now + env.ms2t env.swTime), time := u32 (now + env.ms2t env.suTime) } = _
      rw [hk.1, h2]
    generalize s2.rcStartup env now = s4 at h4 ⊢
    obtain ⟨⟨tm, i, n, h5⟩, h6⟩ := h4
    obtain ⟨a, l, b, c, d⟩ := key (s4.nodeMode env .listen)
    dsimp only at a l b c d ⊢
    have n4 : notes (s4.nodeMode env .listen).1 = notes s4 := rfl
    have r4 : (s4.nodeMode env .listen).1.rc = s4.rc := rfl
    have m4 : (s4.nodeMode env .listen).1.slv.link.mode = .listen := (Slave.setMode_mode env.toEnv s4.slv.link .listen).1
    have o4 : (∀ k, env.modeOk k = true) → (s4.nodeMode env .listen).2 = E.ok := fun h => (Slave.setMode_ok h _ .listen).1
    generalize s4.nodeMode env .listen = q at a l b c d n4 r4 m4 o4 ⊢
    generalize (if q.2 = E.ok then ({ q.1.startAck env with lcsa := .running }, E.ok) else q) = r' at *
    have rc : r'.1.rc = _ := a.trans (r4.trans h5)
    have hs : Searching r'.1 := .inl (by rw [rc])
    refine ⟨?_, ⟨.inr ⟨hs, by rw [rc]⟩, fun _ => by rw [rc]; exact (fun h => nomatch h), fun _ => by rw [rc]; rfl⟩,
      fun h => b.trans (o4 h), c, ?_, ?_, ?_⟩
    · unfold Cbs; rw [rc]; exact ⟨rfl, rfl, rfl, rfl⟩
    · unfold phase; rw [if_pos hs, rc]; rfl
    · rw [l]; exact m4
    · rw [d, n4, h6]

/-- the search after all other inputs -/
theorem other_rc {s s' : Stack} {i : SIn} (h : s.step env i = some s') (h1 : ∀ now bus lec, i ≠ .process now bus lec)
    (h2 : ∀ now, i ≠ .start now) : ∃ r, SameRc r s s' := by
  by_cases hm : noMode i = true
  · exact ⟨_, (other_same h h1 h2 hm).1⟩
  · cases i with
    | api i =>
      cases i with
      | setMode m =>
        injection h with h
        subst h
        exact ⟨false, _, _, _, _, _, .inl rfl, rfl⟩
      | _ => exact absurd rfl hm
    | _ => exact absurd rfl hm

theorem SameRc.phase {r : Bool} {s s' : Stack} (h : SameRc r s s') :
    phase s' = phase s ∧ (Srch s → Srch s') ∧ (Searching s' ↔ Searching s) := by
  obtain ⟨p, a, b, c, d, -, e⟩ := h
  have hs : Searching s' ↔ Searching s := by unfold Searching; rw [e]
  refine ⟨?_, fun hh => ⟨?_, ?_, ?_⟩, hs⟩
  · unfold Stack.phase
    by_cases h : Searching s
    · rw [if_pos h, if_pos (hs.2 h), e]
    · rw [if_neg h, if_neg (fun k => h (hs.1 k))]
  · rcases hh.proc with k | ⟨k1, k2⟩
    · exact .inl (by rw [e]; exact k)
    · exact .inr ⟨hs.2 k1, by rw [e]; exact k2⟩
  · intro k; rw [e]; exact hh.cause.1 (hs.1 k)
  · intro k; rw [e] at k ⊢; exact hh.cause.2 k

theorem Srch.step {s s' : Stack} {i : SIn} (h : Srch s) (hs : s.step env i = some s') : Srch s' := by
  by_cases h1 : ∃ now bus lec, i = .process now bus lec
  · obtain ⟨now, bus, lec, rfl⟩ := h1
    injection hs with hs
    rw [← hs]; exact (process_did h now bus lec).2.2
  by_cases h2 : ∃ now, i = .start now
  · obtain ⟨now, rfl⟩ := h2
    injection hs with hs
    rw [← hs]; exact (start_did env s now).2.1
  obtain ⟨r, e⟩ := other_rc hs (fun now bus lec e => h1 ⟨now, bus, lec, e⟩) (fun now e => h2 ⟨now, e⟩)
  exact e.phase.2.1 h

theorem Srch.boot (mem : Nat → List Byte) (info : XInfo) : Srch (boot mem info) := ⟨.inl rfl, .off rfl⟩

theorem Srch.run (is : List SIn) : ∀ {s s' : Stack}, Srch s → s.run env is = some s' → Srch s' := by
  induction is with
  | nil => intro s s' h hr; injection hr with hr; rw [← hr]; exact h
  | cons i is ih =>
    intro s s' h hr
    simp only [Stack.run, Option.bind_eq_some_iff] at hr
    obtain ⟨s1, h1, h2⟩ := hr
    exact ih (h.step h1) h2

theorem phase_iff (s : Stack) : (phase s).isSome = true ↔ Searching s := by
  unfold phase
  by_cases h : Searching s
  · rw [if_pos h]; exact ⟨fun _ => h, fun _ => rfl⟩
  · rw [if_neg h]; exact ⟨(fun e => nomatch e), fun e => absurd e h⟩

theorem init_lcsa_ind (env : AEnv) (s : Stack) (b : Nat) (P : LState → Prop) (h1 : P .download) (h2 : P s.lcsa) :
    P (s.init env b).1.lcsa := by
  have key0 : ∀ (s1 : Stack) (v : Slave), P s1.lcsa → P (s1.setSlv env v).lcsa := fun _ _ h => h
  have key : ∀ (s1 : Stack) (b : Nat), P s1.lcsa → P (s1.setSlv env (s1.slv.init env.toEnv b).1).lcsa := fun s1 b h => key0 s1 _ h
  unfold Stack.init
  refine key _ _ ?_
  have h3 : ∀ s1 : Stack, P s1.lcsa → ∀ p : Prop, ∀ [Decidable p], P (if p then { s1 with lcsa := .download } else s1).lcsa := by
    intro s1 h p _
    split
    · exact h1
    · exact h
  refine h3 _ ?_ _
  split
  · exact h2
  · exact h2

theorem init_lcsa (env : AEnv) (s : Stack) (b : Nat) : (s.init env b).1.lcsa = .download ∨ (s.init env b).1.lcsa = s.lcsa :=
  init_lcsa_ind env s b (fun l => l = .download ∨ l = s.lcsa) (.inl rfl) (.inr rfl)

/-- only a registration changes the callbacks -/
theorem other_cbs {s s' : Stack} {i : SIn} (h : s.step env i = some s') (h1 : ∀ now bus lec, i ≠ .process now bus lec)
    (h2 : ∀ now, i ≠ .start now) (h3 : ∀ k f, i ≠ .rcCb k f) : Cbs s s' := by
  have ret : ∀ {t : Stack}, some t = some s' → t.rc = s.rc → Cbs s s' := by
    intro t e k
    rw [← Option.some.inj e]
    unfold Cbs; rw [k]; exact ⟨rfl, rfl, rfl, rfl⟩
  cases i with
  | rx now obj dlc id ext data =>
    simp only [Stack.step, Stack.rx] at h
    split at h
    · injection h with h
      rw [← h]; exact ⟨rfl, rfl, rfl, rfl⟩
    split at h
    · injection h with h
      rw [← h]; exact ⟨rfl, rfl, rfl, rfl⟩
    simp only [Option.map_eq_some_iff] at h
    obtain ⟨v, -, h⟩ := h
    subst h
    obtain ⟨a, -⟩ := ((Keep.processTx env (Stack.setSlv env (s.setR fun c => { c with pending := .msg }) v) now).trans
      (Keep.ctrlRx env _ obj id data)).trans (Keep.dataRx env _ obj dlc data)
    unfold Cbs; rw [a]; exact ⟨rfl, rfl, rfl, rfl⟩
  | process now bus lec => exact absurd rfl (h1 now bus lec)
  | start now => exact absurd rfl (h2 now)
  | rcCb k f => exact absurd rfl (h3 k f)
  | init baud => exact ret h (init_same env s baud).1
  | setState l => exact ret h rfl
  | setBaud b => exact ret h rfl
  | api i =>
    simp only [Stack.step] at h
    split at h
    · simp only [Option.map_eq_some_iff] at h
      obtain ⟨v, hv, h⟩ := h
      subst h
      exact ⟨rfl, rfl, rfl, rfl⟩
    · exact ret h rfl
  | hnd k f => exact ret h (by unfold Stack.setHnd; split <;> rfl)
  | dlStart c => exact ret h (Quiet.dlStart env s c).keep.1
  | act a => exact ret h (Quiet.act env s a).keep.1
  | ulData fuel data =>
    have k := (Quiet.ulData env fuel s s' data h).keep.1
    unfold Cbs; rw [k]; exact ⟨rfl, rfl, rfl, rfl⟩
  | putc x => exact ret h (Keep.putc env s x).1
  | retry =>
    refine ret h ?_
    split
    · rfl
    · exact (Keep.retry env s).1
  | xonOff code =>
    refine ret h ?_
    unfold Stack.xonOff
    split <;> rfl
  | shutdown =>
    refine ret h ?_
    unfold Stack.tnlShutdown
    split <;> rfl
  | enqueue nr dlc src => exact ret h (Keep.enqueue env s nr dlc src).1
  | info o => exact ret h rfl

/-! ## C92 -/

/-- inputs of an online search that lasts -/
theorem online_lasts (is : List SIn) : ∀ {s s' : Stack}, Srch s → Lasts env s is → (∀ i ∈ is, noState i = true) →
    s.run env is = some s' → s.lcsa = .reconnect → phase s = some .online → s'.lcsa = .reconnect ∧ phase s' = some .online := by
  induction is with
  | nil => intro s s' h hl hn hr h1 h2; injection hr with hr; rw [← hr]; exact ⟨h1, h2⟩
  | cons i is ih =>
    intro s s' h hl hn hr h1 h2
    simp only [Stack.run, Option.bind_eq_some_iff] at hr
    obtain ⟨s1, hs1, hr⟩ := hr
    obtain ⟨-, -, hst, hl⟩ := hl
    have hl := hl s1 hs1
    have hse : Searching s1 := Lasts.searching hl
    have hn1 : noState i = true := hn i (List.mem_cons_self ..)
    refine ih (h.step hs1) hl (fun i hi => hn i (List.mem_cons_of_mem _ hi)) hr ?_ ?_
    all_goals
      by_cases hp : ∃ now bus lec, i = .process now bus lec
    · obtain ⟨now, bus, lec, rfl⟩ := hp
      injection hs1 with hs1
      have pn : phase s1 ≠ none := by unfold phase; rw [if_pos hse]; exact fun e => nomatch e
      rw [← hs1] at pn ⊢
      cases (process_did (env := env) h now bus lec).1 with
      | goes hp hn hl =>
        rcases hl with hl | ⟨-, hl⟩
        · exact hl.trans h1
        · exact hl
      | begins h0 hp hn hl => exact hl
      | ends k b h0 hp => exact absurd hp pn
      | refused k h0 hp => exact absurd hp pn
    · rw [(other_calm hs1 (fun now bus lec e => hp ⟨now, bus, lec, e⟩) hst (fun l e => by subst e; cases hn1)
        (fun b e => by subst e; cases hn1)).1]
      exact h1
    · obtain ⟨now, bus, lec, rfl⟩ := hp
      injection hs1 with hs1
      have pn : phase s1 ≠ none := by unfold phase; rw [if_pos hse]; exact fun e => nomatch e
      rw [← hs1] at pn ⊢
      cases (process_did (env := env) h now bus lec).1 with
      | goes hp hn hl => exact hp.trans h2
      | begins h0 hp hn hl => exact hp
      | ends k b h0 hp => exact absurd hp pn
      | refused k h0 hp => exact absurd hp pn
    · obtain ⟨r, e⟩ := other_rc hs1 (fun now bus lec e => hp ⟨now, bus, lec, e⟩) hst
      rw [e.phase.1]; exact h2

/-- **C92**, what holds for a search that begins while the node runs: from the processing that begins it the state
reported is RECONNECT, and it stays so until the search ends; after a processing that ends it, with a driver that
does as it is told, it is RUNNING and the node takes part in the traffic again.

`_partial`: the search at startup, see the counterexamples; a driver that refuses; the application setting the state
or starting the stack again in between. -/
theorem C92_online_partial (mem : Nat → List Byte) (info : XInfo) (is0 is : List SIn) (s0 s s1 : Stack)
    (hm : ∀ i ∈ is0, noMode i = true) (hr0 : run env (boot mem info) is0 = some s0) (hs0 : ¬ Searching s0)
    (now : Nat) (bus : BusState) (lec : Lec) (hs : s = s0.process env now bus lec) (hl : Lasts env s is)
    (hn : ∀ i ∈ is, noState i = true) (hr : s.run env is = some s1) :
    s1.lcsa = .reconnect ∧
    ∀ now bus lec, ¬ Searching (s1.process env now bus lec) → (∀ k, env.modeOk k = true) →
      (s1.process env now bus lec).lcsa = .running ∧ (s1.process env now bus lec).slv.link.mode = .operational ∧
      (s1.process env now bus lec).slv.link.drv = .start := by
  have h0 := (Srch.boot mem info).run (env := env) is0 hr0
  have p0 : phase s0 = none := if_neg hs0
  have hb := (process_did (env := env) h0 now bus lec)
  rw [← hs] at hb
  have hss : Searching s := Lasts.searching hl
  have hb1 : phase s = some .online ∧ s.lcsa = .reconnect := by
    cases hb.1 with
    | goes hp => rw [p0] at hp; unfold phase at hp; rw [if_pos hss] at hp; cases hp
    | begins _ hp _ hl => exact ⟨hp, hl⟩
    | ends k b h0 => rw [p0] at h0; cases h0
    | refused k h0 => rw [p0] at h0; cases h0
  obtain ⟨a, b⟩ := online_lasts is hb.2.2 hl hn hr hb1.2 hb1.1
  refine ⟨a, fun now' bus' lec' he hm' => ?_⟩
  have hq := hb.2.2.run is hr
  have hs1 : Searching s1 := (phase_iff s1).1 (by rw [b]; rfl)
  have hri : RInv env s1 := by
    have r0 := (RInv.boot (env := env) mem info).run is0 hm hr0
    have r1 : RInv env s := by rw [hs]; exact r0.process now bus lec
    exact (lasts_run is r1 hl hr).1
  obtain ⟨c, -, e1, -, -, -, e2⟩ := process_end hri hs1 now' bus' lec' he
  refine ⟨?_, e1, e2 hm'⟩
  have pn : phase (s1.process env now' bus' lec') = none := if_neg he
  cases (process_did (env := env) hq now' bus' lec').1 with
  | goes hp => rw [b, pn] at hp; cases hp
  | begins h0 => rw [b] at h0; cases h0
  | ends k bd h0 hp hn hl =>
    rw [b] at h0
    injection h0 with h0
    rw [hl, ← h0]; rfl
  | refused k h0 hp hr => exact absurd hm' hr

/-- **C92**, the other direction: with a driver that does as it is told, RECONNECT is reported only while a search is
running. -/
theorem C92_reconnect_partial (hm : ∀ k, env.modeOk k = true) (mem : Nat → List Byte) (info : XInfo) (is : List SIn) (s : Stack)
    (hn : ∀ i ∈ is, i ≠ .setState .reconnect) (hr : run env (boot mem info) is = some s) (hl : s.lcsa = .reconnect) : Searching s := by
  suffices g : ∀ (is : List SIn) (s s' : Stack), Srch s → (s.lcsa = .reconnect → Searching s) →
      (∀ i ∈ is, i ≠ .setState .reconnect) → s.run env is = some s' → s'.lcsa = .reconnect → Searching s' from
    g is _ s (.boot mem info) (fun e => nomatch e) hn hr hl
  intro is
  induction is with
  | nil => intro s s' _ h1 _ hr; injection hr with hr; rw [← hr]; exact h1
  | cons i is ih =>
    intro s s' h h1 hn hr
    simp only [Stack.run, Option.bind_eq_some_iff] at hr
    obtain ⟨s1, hs1, hr⟩ := hr
    refine ih s1 s' (h.step hs1) ?_ (fun i hi => hn i (List.mem_cons_of_mem _ hi)) hr
    intro hq
    by_cases hp : ∃ now bus lec, i = .process now bus lec
    · obtain ⟨now, bus, lec, rfl⟩ := hp
      injection hs1 with hs1
      rw [← hs1] at hq ⊢
      rw [← phase_iff] at h1 ⊢
      cases (process_did (env := env) h now bus lec).1 with
      | goes hp hn hl =>
        rw [hp]
        rcases hl with hl | ⟨h0, -⟩
        · exact h1 (hl.symm.trans hq)
        · rw [h0]; rfl
      | begins h0 hp hn hl => rw [hp]; rfl
      | ends k b h0 hp hn hl => rw [hq] at hl; cases k <;> cases hl
      | refused k h0 hp hr => exact absurd hm hr
    by_cases hst : ∃ now, i = .start now
    · obtain ⟨now, rfl⟩ := hst
      injection hs1 with hs1
      obtain ⟨-, -, a, b, -⟩ := start_did env s now
      rw [← hs1, b (a hm)] at hq
      cases hq
    obtain ⟨r, e⟩ := other_rc hs1 (fun now bus lec e => hp ⟨now, bus, lec, e⟩) (fun now e => hst ⟨now, e⟩)
    rw [e.phase.2.2]
    refine h1 ?_
    by_cases h3 : ∃ l, i = .setState l
    · obtain ⟨l, rfl⟩ := h3
      injection hs1 with hs1
      rw [← hs1] at hq
      have hq : l = .reconnect := hq
      subst hq
      exact absurd rfl (hn _ (List.mem_cons_self ..))
    by_cases h4 : ∃ b, i = .init b
    · obtain ⟨b, rfl⟩ := h4
      injection hs1 with hs1
      rw [← hs1] at hq
      rcases init_lcsa env s b with e | e
      · rw [e] at hq; cases hq
      · rw [← e]; exact hq
    rw [← (other_calm hs1 (fun now bus lec e => hp ⟨now, bus, lec, e⟩) (fun now e => hst ⟨now, e⟩) (fun l e => h3 ⟨l, e⟩)
      (fun b e => h4 ⟨b, e⟩)).1]
    exact hq

/-- **C92**, the search at startup: the state reported after a successful `lcsa_start` is RUNNING, though the node only
listens. -/
theorem C92_startup_running (s : Stack) (now : Nat) (hd : s.lcsa ≠ .download) (ho : (s.start env now).2 = E.ok) :
    (s.start env now).1.lcsa = .running ∧ (s.start env now).1.slv.link.mode = .listen ∧ Searching (s.start env now).1 := by
  obtain ⟨-, -, -, b, c⟩ := start_did env s now
  rw [if_neg hd] at c
  exact ⟨b ho, c.2.1, (phase_iff _).1 (by rw [c.1]; rfl)⟩

/-! ## C93 -/

theorem track_step {s s' : Stack} {i : SIn} (hm : ∀ k, env.modeOk k = true) (h : Srch s) (hst : ∀ now, i = .start now → ¬ Searching s)
    (c : s.rc.onStart.isSome = true ∧ s.rc.onStop.isSome = true ∧ s.rc.suStart.isSome = true ∧ s.rc.suStop.isSome = true)
    (hs : s.step env i = some s') :
    (∃ w, told s' = told s ++ w ∧ track (phase s) w = some (phase s')) ∧
    (s'.rc.onStart.isSome = true ∧ s'.rc.onStop.isSome = true ∧ s'.rc.suStart.isSome = true ∧ s'.rc.suStop.isSome = true) := by
  obtain ⟨c1, c2, c3, c4⟩ := c
  have cb : Cbs s s' → s'.rc.onStart.isSome = true ∧ s'.rc.onStop.isSome = true ∧ s'.rc.suStart.isSome = true ∧ s'.rc.suStop.isSome = true := by
    rintro ⟨a, b, c, d⟩; rw [a, b, c, d]; exact ⟨c1, c2, c3, c4⟩
  have same : phase s' = phase s → notes s' = notes s → ∃ w, told s' = told s ++ w ∧ track (phase s) w = some (phase s') := by
    intro a b
    exact ⟨[], told_notes (l := []) b, congrArg some a.symm⟩
  by_cases hp : ∃ now bus lec, i = .process now bus lec
  · obtain ⟨now, bus, lec, rfl⟩ := hp
    injection hs with hs
    obtain ⟨d, e, -⟩ := process_did (env := env) h now bus lec
    rw [hs] at d e
    refine ⟨?_, cb e⟩
    cases d with
    | goes hp hn hl => exact same hp hn
    | begins h0 hp hn hl =>
      refine ⟨_, told_notes hn, ?_⟩
      obtain ⟨f, hf⟩ := Option.isSome_iff_exists.1 c1
      rw [h0, hp, hf]; rfl
    | ends k b h0 hp hn hl =>
      refine ⟨_, told_notes hn, ?_⟩
      rw [h0, hp]
      cases k with
      | startup => obtain ⟨f, hf⟩ := Option.isSome_iff_exists.1 c4; simp only [endCall, hf]; rfl
      | online => obtain ⟨f, hf⟩ := Option.isSome_iff_exists.1 c2; simp only [endCall, hf]; rfl
    | refused k h0 hp hr => exact absurd hm hr
  by_cases hst' : ∃ now, i = .start now
  · obtain ⟨now, rfl⟩ := hst'
    injection hs with hs
    have hns := hst now rfl
    have p0 : phase s = none := if_neg hns
    obtain ⟨a, -, -, -, d⟩ := start_did env s now
    rw [hs] at a d
    refine ⟨?_, cb a⟩
    split at d
    · exact same (d.1.trans p0.symm) d.2
    · refine ⟨_, told_notes d.2.2, ?_⟩
      obtain ⟨f, hf⟩ := Option.isSome_iff_exists.1 c3
      rw [p0, d.1, hf]; rfl
  have h1 := fun now bus lec e => hp ⟨now, bus, lec, e⟩
  have h2 := fun now e => hst' ⟨now, e⟩
  obtain ⟨r, e⟩ := other_rc hs h1 h2
  refine ⟨same e.phase.1 ?_, ?_⟩
  · by_cases h3 : ∃ l, i = .setState l
    · obtain ⟨l, rfl⟩ := h3
      injection hs with hs
      rw [← hs]; rfl
    by_cases h4 : ∃ b, i = .init b
    · obtain ⟨b, rfl⟩ := h4
      injection hs with hs
      rw [← hs]; exact init_notes env s b
    exact (other_calm hs h1 h2 (fun l e => h3 ⟨l, e⟩) (fun b e => h4 ⟨b, e⟩)).2
  · by_cases h5 : ∃ k f, i = .rcCb k f
    · obtain ⟨k, f, rfl⟩ := h5
      injection hs with hs
      rw [← hs]
      have n1 : ¬ s.rc.onStart = none := fun e => by rw [e] at c1; cases c1
      have n2 : ¬ s.rc.onStop = none := fun e => by rw [e] at c2; cases c2
      have n3 : ¬ s.rc.suStart = none := fun e => by rw [e] at c3; cases c3
      have n4 : ¬ s.rc.suStop = none := fun e => by rw [e] at c4; cases c4
      unfold setRcCb
      cases k <;> dsimp only
      · rw [if_neg n1]; exact ⟨c1, c2, c3, c4⟩
      · rw [if_neg n2]; exact ⟨c1, c2, c3, c4⟩
      · rw [if_neg n3]; exact ⟨c1, c2, c3, c4⟩
      · rw [if_neg n4]; exact ⟨c1, c2, c3, c4⟩
    · exact cb (other_cbs hs h1 h2 fun k f e => h5 ⟨k, f, e⟩)

/-- **C93**, what holds: an application that has registered the four callbacks before the first search is told of every
search, of its kind, when it begins and when it ends, in turn; what was told last is that a search begins exactly if
one is running.

`_partial`: a driver that refuses, and `lcsa_start` during a search, see the counterexamples. -/
theorem C93_partial (hm : ∀ k, env.modeOk k = true) (mem : Nat → List Byte) (info : XInfo) (is0 is : List SIn) (s0 s : Stack)
    (hr0 : run env (boot mem info) is0 = some s0) (hs0 : ¬ Searching s0)
    (hc : s0.rc.onStart.isSome = true ∧ s0.rc.onStop.isSome = true ∧ s0.rc.suStart.isSome = true ∧ s0.rc.suStop.isSome = true)
    (hn : NoRestart env s0 is) (hr : s0.run env is = some s) :
    ∃ w o, told s = told s0 ++ w ∧ track none w = some o ∧ (o.isSome = true ↔ Searching s) := by
  suffices g : ∀ (is : List SIn) (s0 s : Stack), Srch s0 →
      (s0.rc.onStart.isSome = true ∧ s0.rc.onStop.isSome = true ∧ s0.rc.suStart.isSome = true ∧ s0.rc.suStop.isSome = true) →
      NoRestart env s0 is → s0.run env is = some s → ∃ w, told s = told s0 ++ w ∧ track (phase s0) w = some (phase s) by
    obtain ⟨w, a, b⟩ := g is s0 s ((Srch.boot mem info).run is0 hr0) hc hn hr
    rw [show phase s0 = none from if_neg hs0] at b
    exact ⟨w, _, a, b, phase_iff s⟩
  intro is
  induction is with
  | nil => intro s0 s _ _ _ hr; injection hr with hr; rw [← hr]; exact ⟨[], (List.append_nil _).symm, rfl⟩
  | cons i is ih =>
    intro s0 s h c hn hr
    simp only [Stack.run, Option.bind_eq_some_iff] at hr
    obtain ⟨s1, hs1, hr⟩ := hr
    obtain ⟨n1, n2⟩ := hn
    obtain ⟨⟨w1, a1, b1⟩, c1⟩ := track_step hm h n1 c hs1
    obtain ⟨w2, a2, b2⟩ := ih s1 s (h.step hs1) c1 (n2 s1 hs1) hr
    refine ⟨w1 ++ w2, by rw [a2, a1, List.append_assoc], ?_⟩
    rw [track_append, b1]; exact b2

/-! ## Examples and counterexamples -/

/-- `is` runs from start to a state with `p`. -/
def Reaches (env : AEnv) (is : List SIn) (p : Stack → Bool) : Prop :=
  (match run env (boot exMem exInfo) is with | some s => p s | none => false) = true

theorem Reaches.get {is : List SIn} {p : Stack → Bool} (h : Reaches env is p) :
    ∃ s, run env (boot exMem exInfo) is = some s ∧ p s = true := by
  unfold Reaches at h
  cases hr : run env (boot exMem exInfo) is with
  | none => rw [hr] at h; cases h
  | some s => rw [hr] at h; exact ⟨s, rfl, h⟩

/-- C92: the hypotheses are met: the search after bus off, which ends at the next call after `exFound`. -/
example : (∀ i ∈ exOff, noMode i = true) ∧ run exA (boot exMem exInfo) exOff = some exOffS ∧ ¬ Searching exOffS ∧
    exOnS = exOffS.process exA 800 .busOff .none ∧ Lasts exA exOnS exFound ∧ (∀ i ∈ exFound, noState i = true) ∧
    (match exOnS.run exA exFound with
      | some s => decide (s.lcsa = .reconnect ∧ ¬ Searching (s.process exA 905 .active .none) ∧
          (s.process exA 905 .active .none).lcsa = .running)
      | none => false) = true := by
  refine ⟨by decide, exOff_run, by decide +kernel, ?_, exFound_lasts, by decide, by decide +kernel⟩
  have h := exOn_run
  rw [exOn, run_app, exOff_run] at h
  exact (Option.some.inj h).symm

/-- C92: RECONNECT is reported in the course of the example. -/
example : (∀ i ∈ exOn, i ≠ .setState .reconnect) ∧ exOnS.lcsa = .reconnect ∧ Searching exOnS :=
  ⟨fun i hi e => by subst e; simp [exOn, exOff, exSetup] at hi, by decide +kernel, by decide +kernel⟩

/-- C92: a successful start -/
example : exS.lcsa ≠ .download ∧ (exS.start exA 10).2 = E.ok := ⟨by decide +kernel, by decide +kernel⟩

/-- **C92** fails at startup: the state is RUNNING, and the node only listens for its rate. -/
theorem C92_counterexample_startup : ∃ s, run exA (boot exMem exInfo) (exSetup ++ [.start 10]) = some s ∧
    s.lcsa = .running ∧ Searching s ∧ s.slv.link.mode = .listen ∧ s.slv.link.drv = .listen := by
  have h : Reaches exA (exSetup ++ [.start 10]) fun s => decide (s.lcsa = .running ∧ Searching s ∧
      s.slv.link.mode = .listen ∧ s.slv.link.drv = .listen) := by unfold Reaches; decide +kernel
  obtain ⟨s, hr, hp⟩ := h.get
  exact ⟨s, hr, of_decide_eq_true hp⟩

/-- **C92** fails after startup: the search is over, the node is operational and the driver started, and the state is
INIT. -/
theorem C92_counterexample_after : ∃ s, run exA (boot exMem exInfo) exOff = some s ∧
    s.lcsa = .init ∧ ¬ Searching s ∧ s.slv.link.mode = .operational ∧ s.slv.link.drv = .start := by
  have h : Reaches exA exOff fun s => decide (s.lcsa = .init ∧ ¬ Searching s ∧
      s.slv.link.mode = .operational ∧ s.slv.link.drv = .start) := by unfold Reaches; decide +kernel
  obtain ⟨s, hr, hp⟩ := h.get
  exact ⟨s, hr, of_decide_eq_true hp⟩

/-- the environment of the examples, whose driver refuses the twelfth change of mode -/
def exRefuse : AEnv := { exA with modeOk := fun k => k != 11 }

/-- the online search hears a frame, and is over at the next call -/
def exHeard : List SIn := exOn ++ [.rx 901 5 8 0x610 false [1, 0, 0, 0, 0, 0, 0, 0], .process 902 .active .none]

/-- **C92** fails with a driver that refuses the change back: no search is running, the driver is stopped, and the state
stays RECONNECT while the node thinks it is operational. -/
theorem C92_counterexample_refused : ∃ s, run exRefuse (boot exMem exInfo) exHeard = some s ∧
    s.lcsa = .reconnect ∧ ¬ Searching s ∧ s.slv.link.mode = .operational ∧ s.slv.link.drv = .stop := by
  have h : Reaches exRefuse exHeard fun s => decide (s.lcsa = .reconnect ∧ ¬ Searching s ∧
      s.slv.link.mode = .operational ∧ s.slv.link.drv = .stop) := by unfold Reaches; decide +kernel
  obtain ⟨s, hr, hp⟩ := h.get
  exact ⟨s, hr, of_decide_eq_true hp⟩

theorem noRestart_plain (is : List SIn) : ∀ s, (∀ i ∈ is, ∀ now, i ≠ .start now) → NoRestart env s is := by
  induction is with
  | nil => exact fun _ _ => trivial
  | cons i is ih =>
    exact fun s h => ⟨fun now e => absurd e (h i (List.mem_cons_self ..) now),
      fun s' _ => ih s' fun j hj => h j (List.mem_cons_of_mem _ hj)⟩

/-- C93: the hypotheses are met by a startup and an online search, and both are told. -/
example : run exA (boot exMem exInfo) exSetup = some exS ∧ ¬ Searching exS ∧
    (exS.rc.onStart.isSome = true ∧ exS.rc.onStop.isSome = true ∧ exS.rc.suStart.isSome = true ∧ exS.rc.suStop.isSome = true) ∧
    NoRestart exA exS ([.start 10, .process 700 .active .none, .process 800 .busOff .none] ++ exFound) ∧
    Reaches exA exHeard fun s => decide (told s =
      [.begins .startup, .ends .startup 250, .begins .online, .ends .online 1000]) := by
  refine ⟨?_, by decide +kernel, by decide +kernel, ⟨fun _ _ => by decide +kernel, fun s' _ => noRestart_plain _ _ ?_⟩, ?_⟩
  · have : (run exA (boot exMem exInfo) exSetup).isSome = true := by decide +kernel
    unfold exS
    generalize run exA (boot exMem exInfo) exSetup = o at *
    cases o with
    | none => cases this
    | some s => rfl
  · intro i hi now e
    subst e
    simp [exFound] at hi
  · unfold Reaches; decide +kernel

/-- **C93** fails with a driver that refuses the change back: the search is over, but nothing tells so, and the next
search begins while the last one seems to run. -/
theorem C93_counterexample_refused : ∃ s s', run exRefuse (boot exMem exInfo) exHeard = some s ∧
    run exRefuse (boot exMem exInfo) (exHeard ++ [.process 903 .busOff .none]) = some s' ∧
    ¬ Searching s ∧ track none (told s) = some (some .online) ∧ Searching s' ∧ track none (told s') = none := by
  have h : Reaches exRefuse exHeard fun s => decide (¬ Searching s ∧ track none (told s) = some (some .online)) := by
    unfold Reaches; decide +kernel
  have h' : Reaches exRefuse (exHeard ++ [.process 903 .busOff .none]) fun s => decide (Searching s ∧ track none (told s) = none) := by
    unfold Reaches; decide +kernel
  obtain ⟨s, hr, hp⟩ := h.get
  obtain ⟨s', hr', hp'⟩ := h'.get
  obtain ⟨a, b⟩ := of_decide_eq_true hp
  obtain ⟨c, d⟩ := of_decide_eq_true hp'
  exact ⟨s, s', hr, hr', a, b, c, d⟩

/-- **C93** fails if `lcsa_start` is called during an online search: that search is dropped, a startup search begins and
ends, and the end of the first one is never told. -/
theorem C93_counterexample_restart : ∃ s, run exA (boot exMem exInfo) (exOn ++ [.start 850, .process 1600 .active .none]) = some s ∧
    ¬ Searching s ∧ told s = [.begins .startup, .ends .startup 250, .begins .online, .begins .startup, .ends .startup 250] := by
  have h : Reaches exA (exOn ++ [.start 850, .process 1600 .active .none]) fun s => decide (¬ Searching s ∧
      told s = [.begins .startup, .ends .startup 250, .begins .online, .begins .startup, .ends .startup 250]) := by
    unfold Reaches; decide +kernel
  obtain ⟨s, hr, hp⟩ := h.get
  exact ⟨s, hr, of_decide_eq_true hp⟩

end Stack
end LiCan
