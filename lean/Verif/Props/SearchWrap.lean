import Verif.Props.Reconnect
/-! # Searches and the wrap of the tick counter -/
namespace LiCan
namespace Stack
open Spec
open Node (exMem exEnv)

variable {env : AEnv}

/-! ## When a rate is left -/

/-- one processing with an error before the time for the rate has passed -/
theorem on_stay {s : Stack} (hs : s.rc.state = .on) (hp : s.rc.process = true) (hm : s.rc.pending ≠ .msg) (c : Call)
    (ht : ¬ s.rc.next < c.now) (hb : Bad c.lec = true) :
    (s.process env c.now c.bus c.lec).rc = { s.rc with bit0 := 0 } ∧
    changed s (s.process env c.now c.bus c.lec) = [] := by
  obtain ⟨t, k1, k2⟩ := process_rc env (.inr (.inl hs)) c.now c.bus c.lec
  have e : t.rcProcess env c.now s.rc.pending c.lec = (t.setR fun x => { x with bit0 := 0 }).rcSwitch env c.now := by
    unfold Stack.rcProcess
    rw [k1.1, hp, hs]
    dsimp only
    rw [if_neg (by decide), if_neg hm]
    rw [if_neg (by rintro ⟨-, e⟩; rw [e] at hb; cases hb)]
    generalize c.lec = lec at hb ⊢
    cases lec <;> first | rfl | cases hb
  rw [e] at k2
  unfold Stack.rcSwitch at k2
  rw [if_neg (show ¬ (t.setR fun x => { x with bit0 := 0 }).rc.next < c.now by show ¬ t.rc.next < _; rw [k1.1]; exact ht)] at k2
  have h1 : (s.process env c.now c.bus c.lec).rc = { t.rc with bit0 := 0 } := k2.1
  have h2 : (s.process env c.now c.bus c.lec).slv.link = t.slv.link := k2.2
  refine ⟨by rw [h1, k1.1], changed_same ?_⟩
  rw [h2, k1.2]

/-- calls that all see an error: the rate is left iff one comes after the end of its time -/
theorem on_calls (cs : List Call) : ∀ {s : Stack}, s.rc.state = .on → s.rc.process = true → s.rc.pending ≠ .msg →
    (∀ c ∈ cs, Bad c.lec = true) →
    (switches env s (cs.map Call.sin) ≠ [] ↔ ∃ c ∈ cs, s.rc.next < c.now) := by
  induction cs with
  | nil => intro s _ _ _ _; exact ⟨fun h => absurd rfl h, fun ⟨c, h, _⟩ => nomatch h⟩
  | cons c cs ih =>
    intro s hs hp hm hb
    have hb0 := hb c (List.mem_cons_self ..)
    have hstep : s.step env c.sin = some (s.process env c.now c.bus c.lec) := rfl
    rw [List.map_cons, switches, hstep]
    dsimp only
    by_cases ht : s.rc.next < c.now
    · obtain ⟨-, e2⟩ := on_switch (env := env) hs hp hm c ht hb0
      rw [e2]
      exact ⟨fun _ => ⟨c, List.mem_cons_self .., ht⟩, fun _ h => nomatch h⟩
    · obtain ⟨e1, e2⟩ := on_stay (env := env) hs hp hm c ht hb0
      rw [e2]
      generalize s.process env c.now c.bus c.lec = s1 at e1 ⊢
      have g := ih (s := s1) (by rw [e1]; exact hs) (by rw [e1]; exact hp) (by rw [e1]; exact hm)
        (fun x hx => hb x (List.mem_cons_of_mem _ hx))
      rw [e1] at g
      refine g.trans ⟨fun ⟨x, hx, h⟩ => ⟨x, List.mem_cons_of_mem _ hx, h⟩, fun ⟨x, hx, h⟩ => ?_⟩
      rcases List.mem_cons.mp hx with rfl | hx
      · exact absurd h ht
      · exact ⟨x, hx, h⟩

/-- the end of the time for the rate is fixed by the call that switched to it -/
theorem switch_next {s : Stack} (h : RInv env s) (hs : Searching s) (t : Nat) (bus : BusState) (lec : Lec)
    (hs' : Searching (s.process env t bus lec)) (hc : changed s (s.process env t bus lec) ≠ []) :
    (s.process env t bus lec).rc.next = u32 (t + env.ms2t env.swTime) := by
  obtain ⟨w, u, k1, hT, k2⟩ := process_turn h hs t bus lec
  cases hT with
  | ended c w e =>
    have := off_of_turn_ended e
    rw [← k2.1] at this
    exact absurd hs' (not_searching this)
  | switched st c b k hst hrc hm hl hw hss hnn hlc hlog => rw [k2.1, hrc]
  | same st b k hst hk e =>
    subst e
    refine absurd (changed_same ?_) hc
    rw [k2.2]; show w.slv.link.storedN = _; rw [k1.2]

theorem next_same {s s' : Stack} {i : SIn} (h : RInv env s) (hs : Searching s) (hs' : Searching s') (hm : noMode i = true)
    (hn : ∀ now, i ≠ .start now) (hr : s.step env i = some s') (hc : changed s s' = []) : s'.rc.next = s.rc.next := by
  by_cases h1 : ∃ now bus lec, i = .process now bus lec
  · obtain ⟨now, bus, lec, rfl⟩ := h1
    injection hr with hr
    obtain ⟨t, u, k1, hT, k2⟩ := process_turn h hs now bus lec
    rw [hr] at k2
    cases hT with
    | ended c w e =>
      have := off_of_turn_ended e
      rw [← k2.1] at this
      exact absurd hs' (not_searching this)
    | switched st c b k hst hrc hm hl hw hss hnn hlc hlog =>
      exfalso
      unfold changed at hc
      rw [if_neg (by rw [k2.2, hnn, k1.2]; omega)] at hc
      cases hc
    | same st b k hst hk e =>
      subst e
      rw [k2.1]; show t.rc.next = _; rw [k1.1]
  · obtain ⟨⟨p, a, b, c, d, hp, e⟩, g⟩ := other_same hr (fun now bus lec e => h1 ⟨now, bus, lec, e⟩) hn hm
    rw [e]

theorem next_lasts (is : List SIn) : ∀ {s s' : Stack}, RInv env s → Lasts env s is → s.run env is = some s' →
    switches env s is = [] → s'.rc.next = s.rc.next ∧ RInv env s' := by
  induction is with
  | nil => intro s s' h _ hr _; injection hr with hr; rw [← hr]; exact ⟨rfl, h⟩
  | cons i is ih =>
    intro s s' h hl hr hw
    simp only [Stack.run, Option.bind_eq_some_iff] at hr
    obtain ⟨s1, h1, h2⟩ := hr
    obtain ⟨hs, hm, hn, hl⟩ := hl
    have hl' := hl s1 h1
    rw [switches, h1] at hw
    dsimp only at hw
    obtain ⟨w1, w2⟩ := List.append_eq_nil_iff.mp hw
    obtain ⟨a, b⟩ := ih (h.step hm h1) hl' h2 w2
    exact ⟨a.trans (next_same h hs (Lasts.searching hl') hm hn h1 w1), b⟩

/-- A search that was switched to its present rate at the tick `t`: history before, the call, history after. -/
structure At (env : AEnv) (mem : Nat → List Byte) (info : XInfo) (is0 : List SIn) (t : Nat) (bus : BusState) (lec : Lec)
    (is : List SIn) (s : Stack) : Prop where
  /-- the application does not change modes itself -/
  mode : ∀ i ∈ is0, noMode i = true
  /-- a search goes on, and the call at the tick `t` switches the rate -/
  sets : ∃ s0 s1, (boot mem info).run env is0 = some s0 ∧ s0.step env (.process t bus lec) = some s1 ∧
    changed s0 s1 ≠ [] ∧ Lasts env s0 (.process t bus lec :: is) ∧ s1.run env is = some s ∧ switches env s1 is = []
  /-- the calls after the switch during which the search waits are over, and no frame was received -/
  on   : s.rc.state = .on
  free : s.rc.pending ≠ .msg

theorem At.next {mem : Nat → List Byte} {info : XInfo} {is0 : List SIn} {t : Nat} {bus : BusState} {lec : Lec}
    {is : List SIn} {s : Stack} (h : At env mem info is0 t bus lec is s) :
    s.rc.next = u32 (t + env.ms2t env.swTime) ∧ s.rc.process = true := by
  obtain ⟨s0, s1, h0, h1, hc, hl, h2, hw⟩ := h.sets
  have hi := RInv.run is0 (RInv.boot mem info) h.mode h0
  obtain ⟨hs, hm, hn, hl⟩ := hl
  have hl' := hl s1 h1
  have hi1 := hi.step hm h1
  obtain ⟨a, b⟩ := next_lasts is hi1 hl' h2 hw
  refine ⟨?_, b.proc (.inr (.inl h.on))⟩
  injection h1 with h1
  have hs1 := Lasts.searching hl'
  rw [← h1] at hc hs1
  rw [a, ← h1]
  exact switch_next hi hs t bus lec hs1 hc

/-- C111: exactly when the search leaves a rate at which it sees only errors: when a call reads a tick above
the sum of the tick of the switch and the time for a rate, where the sum is taken modulo 2^32. -/
theorem C111_leaves_iff (mem : Nat → List Byte) (info : XInfo) (is0 : List SIn) (t : Nat) (bus : BusState) (lec : Lec)
    (is : List SIn) (s : Stack) (h : At env mem info is0 t bus lec is s) (cs : List Call) (hb : ∀ c ∈ cs, Bad c.lec = true) :
    switches env s (cs.map Call.sin) ≠ [] ↔ ∃ c ∈ cs, (t + env.ms2t env.swTime) % 4294967296 < c.now := by
  obtain ⟨a, b⟩ := h.next
  rw [on_calls cs h.on b h.free hb, a]

/-- C111, as far as it holds: the rate is left as soon as a call sees an error after the time for a rate.
Missing: that time must not reach the wrap of the tick counter. -/
theorem C111_in_time_partial (mem : Nat → List Byte) (info : XInfo) (is0 : List SIn) (t : Nat) (bus : BusState) (lec : Lec)
    (is : List SIn) (s : Stack) (h : At env mem info is0 t bus lec is s) (hw : t + env.ms2t env.swTime < 4294967296)
    (c : Call) (hc : t + env.ms2t env.swTime < c.now) (hb : Bad c.lec = true) :
    ∃ b, Rate b ∧ changed s (s.process env c.now c.bus c.lec) = [b] ∧ (s.process env c.now c.bus c.lec).slv.link.hwRate = b ∧
      b ≠ s.slv.link.hwRate := by
  obtain ⟨a, b⟩ := h.next
  obtain ⟨s0, s1, h0, h1, -, hl, h2, hz⟩ := h.sets
  have hi : RInv env s :=
    (next_lasts is ((RInv.run is0 (RInv.boot mem info) h.mode h0).step hl.2.1 h1) (hl.2.2.2 s1 h1) h2 hz).2
  have ht : s.rc.next < c.now := by
    rw [a]; show (t + env.ms2t env.swTime) % 4294967296 < _; rw [Nat.mod_eq_of_lt hw]; exact hc
  obtain ⟨e1, e2⟩ := on_switch (env := env) h.on b h.free c ht hb
  have hi' := hi.process c.now c.bus c.lec
  have hr' := (hi'.rate (.inr (by rw [e1]))).2
  rw [e1] at hr'
  refine ⟨_, ?_, e2, hr', ?_⟩
  · have := hi.idx
    have : s.rc.idx = 0 ∨ s.rc.idx = 1 ∨ s.rc.idx = 2 ∨ s.rc.idx = 3 := by omega
    rcases this with e | e | e | e <;> rw [e] <;> decide
  · rw [(hi.rate (.inl h.on)).2]
    have := hi.idx
    have : s.rc.idx = 0 ∨ s.rc.idx = 1 ∨ s.rc.idx = 2 ∨ s.rc.idx = 3 := by omega
    rcases this with e | e | e | e <;> rw [e] <;> decide

/-- C111: there are calls that make the search leave the rate, however long one waits, iff the time for the rate
does not end at the last tick before the wrap. -/
theorem C111_stuck_iff (mem : Nat → List Byte) (info : XInfo) (is0 : List SIn) (t : Nat) (bus : BusState) (lec : Lec)
    (is : List SIn) (s : Stack) (h : At env mem info is0 t bus lec is s) :
    (∀ cs : List Call, (∀ c ∈ cs, c.now < 4294967296 ∧ Bad c.lec = true) → switches env s (cs.map Call.sin) = []) ↔
      (t + env.ms2t env.swTime) % 4294967296 = 4294967295 := by
  constructor
  · intro g
    have g1 := g [⟨4294967295, .active, .stuff⟩] (fun c hc => by
      rw [List.mem_singleton.mp hc]; exact ⟨(by decide), rfl⟩)
    have := Nat.mod_lt (t + env.ms2t env.swTime) (show 4294967296 > 0 by decide)
    by_cases e : (t + env.ms2t env.swTime) % 4294967296 < 4294967295
    · refine absurd g1 ((C111_leaves_iff mem info is0 t bus lec is s h _ ?_).mpr ⟨_, List.mem_singleton.mpr rfl, e⟩)
      intro c hc; rw [List.mem_singleton.mp hc]; rfl
    · omega
  · intro e cs hcs
    have g := C111_leaves_iff mem info is0 t bus lec is s h cs (fun c hc => (hcs c hc).2)
    rw [e] at g
    refine Decidable.byContradiction fun hn => ?_
    obtain ⟨c, hc, hlt⟩ := g.mp hn
    have := (hcs c hc).1
    omega

/-- C65: quiet calls do not end the search while the tick counter is not above the end of the startup time,
which is taken modulo 2^32. -/
theorem C65_lasts (mem : Nat → List Byte) (info : XInfo) (is0 : List SIn) (s : Stack) (hm : ∀ i ∈ is0, noMode i = true)
    (hr : (boot mem info).run env is0 = some s) (hd : s.lcsa ≠ .download) (t : Nat)
    (cs : List Call) (hq : ∀ c ∈ cs, c.lec = .none ∧ c.now ≤ (t + env.ms2t env.suTime) % 4294967296) :
    ∃ s', s.run env (.start t :: cs.map Call.sin) = some s' ∧ Searching s' ∧
      ∀ now bus, (t + env.ms2t env.suTime) % 4294967296 < now → ¬ Searching (s'.process env now bus .none) := by
  have hi1 := (RInv.run is0 (RInv.boot mem info) hm hr).start t
  obtain ⟨a, b, c, d, e⟩ := start_spec (env := env) hd t
  have hrun : s.run env (.start t :: cs.map Call.sin) = (s.start env t).1.run env (cs.map Call.sin) := rfl
  rw [hrun]
  generalize (s.start env t).1 = s1 at *
  obtain ⟨s', g1, -, g3, g4, g5, g6, -⟩ := su_run cs hi1 a b c (fun x hx => by rw [d]; exact hq x hx)
  refine ⟨s', g1, .inl g3, fun now bus hn => not_searching ?_⟩
  exact (su_process (env := env) g3 g4 g5 ⟨now, bus, .none⟩ rfl).1 (by rw [g6, d]; exact hn)

/-- C65: a node started at the wrong tick never comes into operation on a quiet bus: if the startup time ends at
the last tick before the wrap, the search goes on for ever. -/
theorem C65_never (mem : Nat → List Byte) (info : XInfo) (is0 : List SIn) (s : Stack) (hm : ∀ i ∈ is0, noMode i = true)
    (hr : (boot mem info).run env is0 = some s) (hd : s.lcsa ≠ .download) (t : Nat)
    (ht : (t + env.ms2t env.suTime) % 4294967296 = 4294967295)
    (cs : List Call) (hq : ∀ c ∈ cs, c.lec = .none ∧ c.now < 4294967296) :
    ∃ s', s.run env (.start t :: cs.map Call.sin) = some s' ∧ Searching s' := by
  obtain ⟨s', a, b, -⟩ := C65_lasts mem info is0 s hm hr hd t cs fun c hc => ⟨(hq c hc).1, by rw [ht]; have := (hq c hc).2; omega⟩
  exact ⟨s', a, b⟩

/-! ## Cases -/

/-- the calls during which the search waits -/
def exIdle (t : Nat) : List SIn := List.replicate 3 (.process t .active .none)

/-- the search after a switch at the tick `t` -/
def exAt (t : Nat) : Stack := (exOnS.run exA (.process t .active .form :: exIdle t)).getD exOnS

theorem run_process (env : AEnv) (s : Stack) (t : Nat) (bus : BusState) (lec : Lec) (is : List SIn) :
    s.run env (.process t bus lec :: is) = (s.process env t bus lec).run env is := rfl

theorem exAt_at (t : Nat) (ht : t = 4294967293 ∨ t = 5000) :
    At exA exMem exInfo exOn t .active .form (exIdle t) (exAt t) := by
  have key : ∀ t ∈ [4294967293, 5000],
      (exOnS.run exA (.process t .active .form :: exIdle t)).isSome = true ∧
      changed exOnS (exOnS.process exA t .active .form) ≠ [] ∧
      switches exA (exOnS.process exA t .active .form) (exIdle t) = [] ∧
      (exAt t).rc.state = .on ∧ (exAt t).rc.pending ≠ .msg ∧
      (∀ n ∈ List.range 5, (match exOnS.run exA ((.process t .active .form :: exIdle t).take n) with
        | some u => decide (Searching u) | none => true) = true) := by decide +kernel
  obtain ⟨k1, k2, k3, k4, k5, k6⟩ := key t (by rcases ht with rfl | rfl <;> decide)
  refine ⟨by decide, ⟨exOnS, _, exOn_run, rfl, k2, ?_, ?_, k3⟩, k4, k5⟩
  · have gen : ∀ (is : List SIn) (s : Stack), (∀ i ∈ is, noMode i = true ∧ ∀ now, i ≠ .start now) →
        (∀ n, n ≤ is.length → match s.run exA (is.take n) with | some t => Searching t | none => True) → Lasts exA s is := by
      intro is
      induction is with
      | nil => intro s _ h; exact h 0 (Nat.le_refl _)
      | cons i is ih =>
        intro s hm h
        refine ⟨h 0 (Nat.zero_le _), (hm i (List.mem_cons_self ..)).1, (hm i (List.mem_cons_self ..)).2, fun s' hs => ?_⟩
        refine ih s' (fun j hj => hm j (List.mem_cons_of_mem _ hj)) fun n hn => ?_
        have := h (n + 1) (by rw [List.length_cons]; omega)
        rw [List.take_succ_cons, Stack.run, hs] at this
        exact this
    refine gen _ _ ?_ ?_
    · intro i hi
      simp only [exIdle, List.replicate, List.mem_cons, List.not_mem_nil, or_false] at hi
      rcases hi with rfl | rfl | rfl | rfl <;> exact ⟨rfl, fun _ e => by cases e⟩
    · intro n hn
      have := k6 n (List.mem_range.mpr (Nat.lt_succ_of_le hn))
      cases hr : exOnS.run exA ((.process t .active .form :: exIdle t).take n) with
      | none => trivial
      | some u => rw [hr] at this; exact of_decide_eq_true this
  · rw [← run_process]
    unfold exAt
    cases hr : exOnS.run exA (.process t .active .form :: exIdle t) with
    | none => rw [hr] at k1; cases k1
    | some u => rfl

/-- C111: a search switched at the tick 5000 meets the hypotheses, and moves on at 5003. -/
example : At exA exMem exInfo exOn 5000 .active .form (exIdle 5000) (exAt 5000) ∧
    5000 + exA.ms2t exA.swTime < 5003 ∧ (exAt 5000).slv.link.hwRate = 500 ∧
    changed (exAt 5000) ((exAt 5000).process exA 5003 .active .stuff) = [250] :=
  ⟨exAt_at 5000 (.inr rfl), by decide, by decide +kernel, by decide +kernel⟩

/-- C111 is false at the wrap of the tick counter: a search that switches at the tick 2^32 - 3, with 2 ticks for a
rate, never leaves the new rate, however often it sees an error. -/
theorem C111_counterexample : ∃ s, At exA exMem exInfo exOn 4294967293 .active .form (exIdle 4294967293) s ∧
    Searching s ∧ s.slv.link.mode = .listen ∧
    ∀ cs : List Call, (∀ c ∈ cs, c.now < 4294967296 ∧ Bad c.lec = true) → switches exA s (cs.map Call.sin) = [] := by
  have h := exAt_at 4294967293 (.inl rfl)
  exact ⟨_, h, .inr (.inl h.on), by decide +kernel, (C111_stuck_iff _ _ _ _ _ _ _ _ h).mpr (by decide)⟩

/-- C65: the tick at which a start never comes to an end -/
example : exS.lcsa ≠ .download ∧ (4294966695 + exA.ms2t exA.suTime) % 4294967296 = 4294967295 :=
  ⟨by decide +kernel, by decide⟩

end Stack
end LiCan
