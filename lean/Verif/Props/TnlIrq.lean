import Verif.Model.TnlIrq
/-! # C141: tunnel data are sent for the session they were written in, although session messages arrive during the calls -/
namespace LiCan
namespace TnlIrq

/-! ## Specification: what an observer concludes from what was observed -/
namespace Spec

/-- The session as the partners see it. -/
inductive Sess
  | none
  | active (nr p : Nat)
  | closing (nr p : Nat)
deriving DecidableEq, Repr

def next (s : Sess) : TnlObs → Sess
  | .opened nr p => .active nr p
  | .closed => .none
  | .closing => match s with | .active nr p => .closing nr p | s => s
  | .resumed => match s with | .closing nr p => .active nr p | s => s
  | _ => s

/-- the session after these observations -/
def sess (l : List TnlObs) : Sess := l.foldl next .none

/-- What may be observed next: data are taken and sent in an active session and under its number only; a close request goes from the module of
the session to its partner; an open request is denied only if there is a session. -/
def Good (s : Sess) : TnlObs → Prop
  | .put _ => ∃ nr p, s = .active nr p
  | .sent nr _ => ∃ p, s = .active nr p
  | .closing => ∃ nr p, s = .active nr p
  | .closeReq nr p => s = .closing nr p
  | .denied => s ≠ .none
  | .wrong => ∀ nr p, s ≠ .active nr p
  | _ => True

/-- a session message, seen by its effect -/
def Control : TnlObs → Prop
  | .opened _ _ | .closed | .resumed | .denied => True
  | _ => False

/-- the number of the last module for which a session was opened, 125 if it was closed since -/
def numStep (n : Nat) : TnlObs → Nat
  | .opened nr _ => nr
  | .closed => 125
  | _ => n
def num (l : List TnlObs) : Nat := l.foldl numStep 125

/-- the bytes taken -/
def taken (l : List TnlObs) : List Byte := l.flatMap fun | .put x => [x] | _ => []
/-- the bytes sent -/
def given (l : List TnlObs) : List Byte := l.flatMap fun | .sent _ xs => xs | _ => []

/-- the session messages come between the calls only -/
def Between : TnlIrq → List Evt → Prop
  | _, [] => True
  | w, e :: es => ((∃ m, e = .msg m) → w.pc = none) ∧ Between (w.step e) es

end Spec

open Spec

theorem sess_snoc (l : List TnlObs) (o : TnlObs) : sess (l ++ [o]) = next (sess l) o := by simp [sess]
theorem num_snoc (l : List TnlObs) (o : TnlObs) : num (l ++ [o]) = numStep (num l) o := by simp [num]
theorem taken_snoc (l : List TnlObs) (o : TnlObs) : taken (l ++ [o]) = taken l ++ taken [o] := by simp [taken]
theorem given_snoc (l : List TnlObs) (o : TnlObs) : given (l ++ [o]) = given l ++ given [o] := by simp [given]

/-- at every observation -/
def Each (P : List TnlObs → TnlObs → Prop) (l : List TnlObs) : Prop := ∀ pre o post, l = pre ++ o :: post → P pre o

theorem each_snoc {P : List TnlObs → TnlObs → Prop} {l : List TnlObs} {o : TnlObs} (h : Each P l) (ho : P l o) : Each P (l ++ [o]) := by
  intro pre a post e
  rcases List.eq_nil_or_concat post with rfl | ⟨post', b, rfl⟩
  · have := List.append_inj' e (by simp)
    obtain ⟨rfl, h2⟩ := this
    simp at h2
    subst h2
    exact ho
  · rw [List.concat_eq_append, ← List.cons_append, ← List.append_assoc] at e
    exact h pre a post' (List.append_inj' e (by simp)).1

/-! ## Session messages between the calls -/

/-- the variables show the session -/
def Shows (s : Sess) (w : TnlIrq) : Prop :=
  match s with
  | .none => w.st = .free
  | .active nr p => w.st = .active ∧ w.own = nr ∧ w.prim = p
  | .closing nr p => w.st = .shutdown ∧ w.own = nr ∧ w.prim = p

/-- where the main loop knows that the session is active -/
def knows : Option TnlPc → Bool
  | some (.putByte _) | some .putFull | some .putArg | some (.putSend _) | some .putClr
  | some .flTime | some .flArg | some (.flSend _) | some .flClr | some .shSet => true
  | _ => false

structure Calm (w : TnlIrq) : Prop where
  good : Each (fun l o => Good (sess l) o) w.log
  shows : Shows (sess w.log) w
  knows : knows w.pc = true → w.st = .active
  arg : ∀ nr, (w.pc = some (.putSend nr) ∨ w.pc = some (.flSend nr)) → nr = w.own
  send : w.pc = some .shSend → ∃ nr p, sess w.log = .closing nr p

theorem shows_active {w : TnlIrq} {s : Sess} (h : Shows s w) (ha : w.st = .active) : s = .active w.own w.prim := by
  cases s with
  | none => simp only [Shows] at h; rw [h] at ha; cases ha
  | active nr p => obtain ⟨_, rfl, rfl⟩ := h; rfl
  | closing nr p => obtain ⟨h, _⟩ := h; rw [h] at ha; cases ha

theorem shows_not {w : TnlIrq} {s : Sess} (h : Shows s w) (ha : w.st ≠ .active) : ∀ nr p, s ≠ .active nr p := by
  rintro nr p rfl
  exact ha h.1

theorem calm_main {w : TnlIrq} (h : Calm w) (go ok : Bool) : Calm (w.main go ok) := by
  obtain ⟨st, own, prim, tmp, pc, log⟩ := w
  obtain ⟨h1, h2, h3, h4, h5⟩ := h
  have wrong : st ≠ .active → Calm ⟨st, own, prim, tmp, none, log ++ [.wrong]⟩ := fun hs =>
    ⟨each_snoc h1 (shows_not h2 hs), by rw [sess_snoc]; exact h2, nofun, fun _ h => h.elim nofun nofun, nofun⟩
  have keep : ∀ pc', (knows pc' = true → st = .active) → (∀ nr, (pc' = some (.putSend nr) ∨ pc' = some (.flSend nr)) → nr = own) →
      pc' ≠ some .shSend → ∀ tmp', Calm ⟨st, own, prim, tmp', pc', log⟩ := fun pc' a b c tmp' =>
    ⟨h1, h2, a, b, fun e => absurd e c⟩
  have sent : ∀ pc', st = .active → (∀ nr, (pc' = some (.putSend nr) ∨ pc' = some (.flSend nr)) → nr = own) → pc' ≠ some .shSend →
      Calm ⟨st, own, prim, tmp, pc', log ++ [.sent own tmp]⟩ := fun pc' a b c =>
    ⟨each_snoc h1 ⟨prim, shows_active h2 a⟩, by rw [sess_snoc]; exact h2, fun _ => a, b, fun e => absurd e c⟩
  cases pc with
  | none => exact keep none nofun (fun _ h => h.elim nofun nofun) nofun tmp
  | some p =>
    cases p with
    | putCheck x =>
      by_cases hs : st = .active
      · simp only [main, hs, if_true]
        exact hs ▸ keep _ (fun _ => hs) (by intro _ h; exact h.elim nofun nofun) (by nofun) tmp
      · simp only [main, hs, if_false]; exact wrong hs
    | putByte x =>
      refine ⟨each_snoc h1 ⟨own, prim, shows_active h2 (h3 rfl)⟩, ?_, fun _ => h3 rfl, fun _ h => h.elim nofun nofun, nofun⟩
      simp only [main]; rw [sess_snoc]; exact h2
    | putFull =>
      simp only [main]
      split
      · exact keep _ (fun _ => h3 rfl) (by intro _ h; exact h.elim nofun nofun) (by nofun) tmp
      · exact keep _ (by nofun) (by intro _ h; exact h.elim nofun nofun) (by nofun) tmp
    | putArg =>
      refine keep _ (fun _ => h3 rfl) (fun nr h => ?_) (by nofun) tmp
      rcases h with h | h
      · simpa using h.symm
      · cases h
    | putSend nr =>
      obtain rfl : nr = own := h4 nr (.inl rfl)
      cases ok with
      | true => exact sent _ (h3 rfl) (by intro _ h; exact h.elim nofun nofun) (by nofun)
      | false => exact keep _ (fun _ => h3 rfl) (by intro _ h; exact h.elim nofun nofun) (by nofun) tmp
    | putClr => exact keep _ (by nofun) (by intro _ h; exact h.elim nofun nofun) (by nofun) []
    | flCheck =>
      by_cases hs : st = .active
      · simp only [main, hs, if_true]
        exact hs ▸ keep _ (fun _ => hs) (by intro _ h; exact h.elim nofun nofun) (by nofun) tmp
      · simp only [main, hs, if_false]; exact wrong hs
    | flTime =>
      simp only [main]
      split
      · exact keep _ (fun _ => h3 rfl) (by intro _ h; exact h.elim nofun nofun) (by nofun) tmp
      · exact keep _ (by nofun) (by intro _ h; exact h.elim nofun nofun) (by nofun) tmp
    | flArg =>
      refine keep _ (fun _ => h3 rfl) (fun nr h => ?_) (by nofun) tmp
      rcases h with h | h
      · cases h
      · simpa using h.symm
    | flSend nr =>
      obtain rfl : nr = own := h4 nr (.inr rfl)
      cases ok with
      | true => exact sent _ (h3 rfl) (by intro _ h; exact h.elim nofun nofun) (by nofun)
      | false => exact keep _ (by nofun) (by intro _ h; exact h.elim nofun nofun) (by nofun) tmp
    | flClr => exact keep _ (by nofun) (by intro _ h; exact h.elim nofun nofun) (by nofun) []
    | shCheck =>
      by_cases hs : st = .active
      · simp only [main, hs, if_true]
        exact hs ▸ keep _ (fun _ => hs) (by intro _ h; exact h.elim nofun nofun) (by nofun) tmp
      · simp only [main, hs, if_false]; exact wrong hs
    | shSet =>
      have a := shows_active h2 (h3 rfl)
      have b : sess (log ++ [.closing]) = .closing own prim := by rw [sess_snoc, a]; rfl
      refine ⟨each_snoc h1 ⟨own, prim, a⟩, ?_, nofun, fun _ h => h.elim nofun nofun, fun _ => ⟨own, prim, b⟩⟩
      simp only [main]; rw [b]; exact ⟨rfl, rfl, rfl⟩
    | shSend =>
      obtain ⟨nr, p, hc⟩ := h5 rfl
      obtain ⟨hs, e1, e2⟩ : st = .shutdown ∧ own = nr ∧ prim = p := by rw [hc] at h2; exact h2
      subst e1 e2
      refine ⟨each_snoc h1 hc, ?_, nofun, fun _ h => h.elim nofun nofun, nofun⟩
      simp only [main]; rw [sess_snoc]; exact h2

theorem calm_msg {w : TnlIrq} (h : Calm w) (hp : w.pc = none) (m : Msg) : Calm (w.msg m) := by
  obtain ⟨st, own, prim, tmp, pc, log⟩ := w
  obtain ⟨h1, h2, h3, h4, h5⟩ := h
  subst hp
  have mk : ∀ {o st' own' prim'}, Good (sess log) o → Shows (next (sess log) o) ⟨st', own', prim', tmp, none, log ++ [o]⟩ →
      Calm ⟨st', own', prim', tmp, none, log ++ [o]⟩ := fun g s =>
    ⟨each_snoc h1 g, by rw [sess_snoc]; exact s, nofun, fun _ h => h.elim nofun nofun, nofun⟩
  have same : Calm ⟨st, own, prim, tmp, none, log⟩ := ⟨h1, h2, h3, h4, h5⟩
  have fr : Calm (freed ⟨st, own, prim, tmp, none, log⟩) := mk trivial rfl
  cases m with
  | opn nr p agree =>
    by_cases hs : st = .free
    · cases agree with
      | true => simp only [msg, hs, if_true]; exact mk trivial ⟨rfl, rfl, rfl⟩
      | false => simpa [msg, hs] using hs ▸ same
    · simp only [msg, hs, if_false]
      refine mk ?_ h2
      intro e
      rw [e] at h2
      exact hs h2
  | cls agree =>
    cases agree with
    | true => exact fr
    | false => exact same
  | ack nr p =>
    simp only [msg]
    split
    · exact fr
    · exact same
  | deny nr p =>
    simp only [msg]
    split
    · rename_i hc
      obtain ⟨rfl, rfl, rfl⟩ := hc
      refine mk trivial ?_
      cases hss : sess log with
      | none => rw [hss] at h2; cases h2
      | active nr p => rw [hss] at h2; cases h2.1
      | closing nr p => rw [hss] at h2; exact ⟨rfl, h2.2⟩
    · exact same

theorem calm_flush {w : TnlIrq} (h : Calm w) (go ok : Bool) : Calm (w.flush go ok) := by
  obtain ⟨st, own, prim, tmp, pc, log⟩ := w
  unfold flush
  split
  · exact h
  · split
    · rename_i hl hs
      obtain ⟨h1, h2, h3, h4, h5⟩ := h
      split
      · refine ⟨each_snoc h1 ⟨prim, shows_active h2 hs⟩, ?_, h3, h4, ?_⟩
        · show Shows (sess (log ++ [.sent own tmp])) _
          rw [sess_snoc]; exact h2
        · intro hp
          show ∃ nr p, sess (log ++ [.sent own tmp]) = .closing nr p
          rw [sess_snoc]; exact h5 hp
      · exact ⟨h1, h2, h3, h4, h5⟩
    · rename_i hl hs
      obtain ⟨h1, h2, h3, h4, h5⟩ := h
      refine ⟨each_snoc h1 (shows_not h2 hs), ?_, h3, h4, ?_⟩
      · show Shows (sess (log ++ [.wrong])) _
        rw [sess_snoc]; exact h2
      · intro hp
        show ∃ nr p, sess (log ++ [.wrong]) = .closing nr p
        rw [sess_snoc]; exact h5 hp

theorem calm_call {w : TnlIrq} (h : Calm w) (pc : TnlPc) (hk : knows (some pc) = false) (ha : ∀ nr, pc ≠ .putSend nr ∧ pc ≠ .flSend nr)
    (hs : pc ≠ .shSend) : Calm (w.call pc) := by
  unfold call
  split
  · refine ⟨h.good, h.shows, fun e => ?_, fun nr e => ?_, fun e => ?_⟩
    · rw [hk] at e; cases e
    · rcases e with e | e
      · exact absurd (Option.some.inj e) (ha nr).1
      · exact absurd (Option.some.inj e) (ha nr).2
    · exact absurd (Option.some.inj e) hs
  · exact h

theorem calm_run (es : List Evt) : ∀ {w : TnlIrq}, Calm w → Between w es → Calm (w.run es) := by
  induction es with
  | nil => intro w h _; exact h
  | cons e es ih =>
    intro w h hb
    refine ih (w := w.step e) ?_ hb.2
    cases e with
    | putc x => exact calm_call h _ rfl (fun _ => ⟨nofun, nofun⟩) nofun
    | process => exact calm_call h _ rfl (fun _ => ⟨nofun, nofun⟩) nofun
    | shutdown => exact calm_call h _ rfl (fun _ => ⟨nofun, nofun⟩) nofun
    | main go ok => exact calm_main h go ok
    | msg m => exact calm_msg h (hb.1 ⟨m, rfl⟩) m
    | rx go ok => exact calm_flush h go ok

theorem calm_init : Calm {} :=
  ⟨fun pre o post e => by simp at e, rfl, nofun, fun _ h => h.elim nofun nofun, nofun⟩

/-- **C141**, full claim under the restriction that session messages arrive between the calls only: whatever happens from the start, data are taken
and sent in an active session and under its module number only, a close request goes from the session's module to its partner, and an open request
is denied only if there is a session.  Missing: session messages inside the calls, for which each of these is false (see the counterexamples). -/
theorem C141_partial (es : List Evt) (hb : Between {} es) (pre : List TnlObs) (o : TnlObs) (post : List TnlObs)
    (h : (run {} es).log = pre ++ o :: post) : Good (sess pre) o :=
  (calm_run es calm_init hb).good pre o post h

/-! ## Session messages anywhere -/

/-- the number under which an object is sent is the one a module had before session messages directly before -/
def Held (nr : Nat) (l : List TnlObs) : Prop := ∃ l1 l2, l = l1 ++ l2 ∧ nr = num l1 ∧ ∀ o ∈ l2, Control o ∨ o = .wrong

/-- an observed object has one to eight bytes and such a number -/
def Fair (l : List TnlObs) : TnlObs → Prop
  | .sent nr xs => 1 ≤ xs.length ∧ xs.length ≤ 8 ∧ Held nr l
  | _ => True

theorem held_snoc {nr : Nat} {l : List TnlObs} (h : Held nr l) {o : TnlObs} (ho : Control o ∨ o = .wrong) : Held nr (l ++ [o]) := by
  obtain ⟨l1, l2, rfl, e, hc⟩ := h
  refine ⟨l1, l2 ++ [o], by simp, e, fun a ha => ?_⟩
  rcases List.mem_append.1 ha with ha | ha
  · exact hc a ha
  · rw [List.mem_singleton.1 ha]; exact ho

/-- how many bytes the temporary object may have -/
def room (tmp : List Byte) : Option TnlPc → Prop
  | some .putFull => 1 ≤ tmp.length ∧ tmp.length ≤ 8
  | some .putArg | some (.putSend _) => tmp.length = 8
  | some .putClr => True
  | some .flArg | some (.flSend _) => 1 ≤ tmp.length ∧ tmp.length < 8
  | some .flClr => True
  | _ => tmp.length < 8

/-- the bytes not sent yet -/
def unsent (w : TnlIrq) : List Byte :=
  match w.pc with
  | some .putClr | some .flClr => []
  | _ => w.tmp

structure Wild (w : TnlIrq) : Prop where
  fair : Each Fair w.log
  own : w.own = num w.log
  arg : ∀ nr, (w.pc = some (.putSend nr) ∨ w.pc = some (.flSend nr)) → Held nr w.log
  room : room w.tmp w.pc
  bytes : given w.log ++ unsent w = taken w.log

theorem held_num {w : TnlIrq} (h : Wild w) : Held w.own w.log := ⟨w.log, [], by simp, h.own, nofun⟩

/-- an observation that is neither a byte taken nor an object sent -/
def Silent (o : TnlObs) : Prop := taken [o] = [] ∧ given [o] = []

theorem fair_silent {l : List TnlObs} {o : TnlObs} (h : given [o] = []) (hn : ∀ nr xs, o ≠ .sent nr xs) : Fair l o := by
  cases o with
  | sent nr xs => exact absurd rfl (hn nr xs)
  | _ => trivial

/-- an observation during a call that changes neither the object nor the place -/
theorem wild_obs {w : TnlIrq} (h : Wild w) (o : TnlObs) (ho : Control o ∨ o = .wrong) (st : TState) (own prim : Nat) (hn : own = numStep w.own o) :
    Wild { w with st := st, own := own, prim := prim, log := w.log ++ [o] } := by
  obtain ⟨h1, h2, h3, h4, h5⟩ := h
  have hq : taken [o] = [] ∧ given [o] = [] ∧ Fair w.log o := by
    rcases ho with ho | rfl
    · cases o <;> first | exact ⟨rfl, rfl, trivial⟩ | exact absurd ho (by simp [Control])
    · exact ⟨rfl, rfl, trivial⟩
  refine ⟨each_snoc h1 hq.2.2, ?_, fun nr e => held_snoc (h3 nr e) ho, h4, ?_⟩
  · show own = num (w.log ++ [o])
    rw [num_snoc, ← h2]; exact hn
  · show given (w.log ++ [o]) ++ unsent w = taken (w.log ++ [o])
    rw [given_snoc, taken_snoc, hq.1, hq.2.1]; simpa using h5

theorem wild_pc {w : TnlIrq} (h : Wild w) (pc : Option TnlPc) (ha : ∀ nr, (pc = some (.putSend nr) ∨ pc = some (.flSend nr)) → nr = w.own)
    (hr : TnlIrq.room w.tmp pc) (h0 : unsent w = w.tmp) (h0' : unsent { w with pc := pc } = w.tmp) : Wild { w with pc := pc } := by
  refine ⟨h.fair, h.own, fun nr e => ?_, hr, ?_⟩
  · rw [ha nr e]; exact held_num h
  · show given w.log ++ unsent { w with pc := pc } = taken w.log
    rw [h0', ← h0]; exact h.bytes

theorem wild_main {w : TnlIrq} (h : Wild w) (go ok : Bool) : Wild (w.main go ok) := by
  obtain ⟨st, own, prim, tmp, pc, log⟩ := w
  have wrong : ∀ pc0, pc = some pc0 → tmp.length < 8 → unsent ⟨st, own, prim, tmp, pc, log⟩ = tmp →
      Wild ⟨st, own, prim, tmp, none, log ++ [.wrong]⟩ := fun pc0 e hl hu =>
    wild_obs (wild_pc h none (by intro _ h; exact h.elim nofun nofun) hl hu rfl) .wrong (.inr rfl) st own prim rfl
  have sent : ∀ nr pc', Held nr log → 1 ≤ tmp.length → tmp.length ≤ 8 → given log ++ tmp = taken log → pc' = .putClr ∨ pc' = .flClr →
      Wild ⟨st, own, prim, tmp, some pc', log ++ [.sent nr tmp]⟩ := fun nr pc' hh a b e hp => by
    refine ⟨each_snoc h.fair ⟨a, b, hh⟩, ?_, ?_, ?_, ?_⟩
    · show own = num (log ++ [.sent nr tmp])
      rw [num_snoc]; exact h.own
    · intro nr' e'
      rcases hp with rfl | rfl <;> exact e'.elim nofun nofun
    · rcases hp with rfl | rfl <;> trivial
    · have hu : unsent ⟨st, own, prim, tmp, some pc', log ++ [.sent nr tmp]⟩ = [] := by rcases hp with rfl | rfl <;> rfl
      rw [hu]
      show given (log ++ [.sent nr tmp]) ++ [] = taken (log ++ [.sent nr tmp])
      rw [given_snoc, taken_snoc, ← e]; simp [given, taken]
  have clr : ∀ pc0, pc = some pc0 → pc0 = .putClr ∨ pc0 = .flClr → Wild ⟨st, own, prim, [], none, log⟩ := fun pc0 e hp =>
    ⟨h.fair, h.own, fun _ h => h.elim nofun nofun, by show 0 < 8; omega, by
      have hb := h.bytes
      subst e
      rcases hp with rfl | rfl <;> exact hb⟩
  cases pc with
  | none => exact h
  | some p =>
    cases p with
    | putCheck x =>
      by_cases hs : st = .active
      · simp only [main, hs, if_true]; exact hs ▸ wild_pc h _ (by intro _ h; exact h.elim nofun nofun) h.room rfl rfl
      · simp only [main, hs, if_false]; exact wrong _ rfl h.room rfl
    | putByte x =>
      refine ⟨each_snoc h.fair trivial, ?_, fun _ h => h.elim nofun nofun, ?_, ?_⟩
      · show own = num (log ++ [.put x])
        rw [num_snoc]; exact h.own
      · have hr : tmp.length < 8 := h.room
        show 1 ≤ (tmp ++ [x]).length ∧ (tmp ++ [x]).length ≤ 8
        simp; omega
      · show given (log ++ [.put x]) ++ (tmp ++ [x]) = taken (log ++ [.put x])
        have hb : given log ++ tmp = taken log := h.bytes
        rw [given_snoc, taken_snoc, ← hb]; simp [given, taken]
    | putFull =>
      have hr : 1 ≤ tmp.length ∧ tmp.length ≤ 8 := h.room
      simp only [main]
      split
      · rename_i h8
        exact wild_pc h _ (by intro _ h; exact h.elim nofun nofun) h8 rfl rfl
      · rename_i h8
        exact wild_pc h _ (by intro _ h; exact h.elim nofun nofun) (by show tmp.length < 8; omega) rfl rfl
    | putArg =>
      refine wild_pc h _ (fun nr h => ?_) h.room rfl rfl
      rcases h with h | h
      · simpa using h.symm
      · cases h
    | putSend nr =>
      have hr : tmp.length = 8 := h.room
      cases ok with
      | true => exact sent nr _ (h.arg nr (.inl rfl)) (by omega) (by omega) h.bytes (.inl rfl)
      | false => exact wild_pc h _ (by intro _ h; exact h.elim nofun nofun) hr rfl rfl
    | putClr => exact clr _ rfl (.inl rfl)
    | flCheck =>
      by_cases hs : st = .active
      · simp only [main, hs, if_true]; exact hs ▸ wild_pc h _ (by intro _ h; exact h.elim nofun nofun) h.room rfl rfl
      · simp only [main, hs, if_false]; exact wrong _ rfl h.room rfl
    | flTime =>
      have hr : tmp.length < 8 := h.room
      simp only [main]
      split
      · rename_i h8
        exact wild_pc h _ (by intro _ h; exact h.elim nofun nofun) ⟨h8.1, hr⟩ rfl rfl
      · exact wild_pc h _ (by intro _ h; exact h.elim nofun nofun) hr rfl rfl
    | flArg =>
      refine wild_pc h _ (fun nr h => ?_) h.room rfl rfl
      rcases h with h | h
      · cases h
      · simpa using h.symm
    | flSend nr =>
      have hr : 1 ≤ tmp.length ∧ tmp.length < 8 := h.room
      cases ok with
      | true => exact sent nr _ (h.arg nr (.inr rfl)) hr.1 (by omega) h.bytes (.inr rfl)
      | false => exact wild_pc h _ (by intro _ h; exact h.elim nofun nofun) hr.2 rfl rfl
    | flClr => exact clr _ rfl (.inr rfl)
    | shCheck =>
      by_cases hs : st = .active
      · simp only [main, hs, if_true]; exact hs ▸ wild_pc h _ (by intro _ h; exact h.elim nofun nofun) h.room rfl rfl
      · simp only [main, hs, if_false]; exact wrong _ rfl h.room rfl
    | shSet =>
      refine ⟨each_snoc h.fair trivial, ?_, fun _ h => h.elim nofun nofun, h.room, ?_⟩
      · show own = num (log ++ [.closing])
        rw [num_snoc]; exact h.own
      · show given (log ++ [.closing]) ++ tmp = taken (log ++ [.closing])
        have hb : given log ++ tmp = taken log := h.bytes
        rw [given_snoc, taken_snoc, ← hb]; simp [given, taken]
    | shSend =>
      refine ⟨each_snoc h.fair trivial, ?_, fun _ h => h.elim nofun nofun, h.room, ?_⟩
      · show own = num (log ++ [.closeReq own prim])
        rw [num_snoc]; exact h.own
      · show given (log ++ [.closeReq own prim]) ++ tmp = taken (log ++ [.closeReq own prim])
        have hb : given log ++ tmp = taken log := h.bytes
        rw [given_snoc, taken_snoc, ← hb]; simp [given, taken]

theorem wild_msg {w : TnlIrq} (h : Wild w) (m : Msg) : Wild (w.msg m) := by
  have fr : Wild w.freed := wild_obs h .closed (.inl trivial) .free 125 125 rfl
  cases m with
  | opn nr p agree =>
    simp only [msg]
    split
    · split
      · exact wild_obs h (.opened nr p) (.inl trivial) .active nr p rfl
      · exact h
    · exact wild_obs h .denied (.inl trivial) w.st w.own w.prim rfl
  | cls agree => simp only [msg]; split <;> assumption
  | ack nr p => simp only [msg]; split <;> assumption
  | deny nr p =>
    simp only [msg]
    split
    · exact wild_obs h .resumed (.inl trivial) .active w.own w.prim rfl
    · exact h

theorem wild_flush {w : TnlIrq} (h : Wild w) (go ok : Bool) : Wild (w.flush go ok) := by
  obtain ⟨st, own, prim, tmp, pc, log⟩ := w
  have h8 : ¬ locked ⟨st, own, prim, tmp, pc, log⟩ = true → tmp.length < 8 ∧ given log ++ tmp = taken log ∧
      (∀ nr, ¬ (pc = some (.putSend nr) ∨ pc = some (.flSend nr))) ∧ TnlIrq.room [] pc ∧
      ∀ l, unsent ⟨st, own, prim, [], pc, l⟩ = [] := by
    intro hl
    have hr := h.room
    have hb := h.bytes
    cases pc with
    | none => exact ⟨hr, hb, fun _ h => h.elim nofun nofun, by show 0 < 8; omega, fun _ => rfl⟩
    | some p =>
      cases p <;> first
        | exact absurd rfl hl
        | exact ⟨hr, hb, fun _ h => h.elim nofun nofun, by show 0 < 8; omega, fun _ => rfl⟩
  unfold flush
  split
  · exact h
  · rename_i hl
    obtain ⟨a, b, c, d, e⟩ := h8 hl
    split
    · split
      · rename_i hs hg
        refine ⟨each_snoc h.fair ⟨hg.1, Nat.le_of_lt a, held_num h⟩, ?_, fun nr x => absurd x (c nr), d, ?_⟩
        · show own = num (log ++ [.sent own tmp])
          rw [num_snoc]; exact h.own
        · show given (log ++ [.sent own tmp]) ++ unsent ⟨st, own, prim, [], pc, log ++ [.sent own tmp]⟩ = taken (log ++ [.sent own tmp])
          rw [e, given_snoc, taken_snoc, ← b]; simp [given, taken]
      · exact h
    · exact wild_obs h .wrong (.inr rfl) st own prim rfl

theorem wild_call {w : TnlIrq} (h : Wild w) (pc : TnlPc) (hr : ∀ t : List Byte, t.length < 8 → TnlIrq.room t (some pc))
    (hu : unsent { w with pc := some pc } = w.tmp) (ha : ∀ nr, pc ≠ .putSend nr ∧ pc ≠ .flSend nr) : Wild (w.call pc) := by
  unfold call
  split
  · rename_i hp
    have r := h.room
    rw [hp] at r
    refine wild_pc h _ (fun nr e => ?_) (hr _ r) (by unfold unsent; rw [hp]) hu
    rcases e with e | e
    · exact absurd (Option.some.inj e) (ha nr).1
    · exact absurd (Option.some.inj e) (ha nr).2
  · exact h

theorem wild_run (es : List Evt) : ∀ {w : TnlIrq}, Wild w → Wild (w.run es) := by
  induction es with
  | nil => intro w h; exact h
  | cons e es ih =>
    intro w h
    refine ih (w := w.step e) ?_
    cases e with
    | putc x => exact wild_call h _ (fun _ h => h) rfl (fun _ => ⟨nofun, nofun⟩)
    | process => exact wild_call h _ (fun _ h => h) rfl (fun _ => ⟨nofun, nofun⟩)
    | shutdown => exact wild_call h _ (fun _ h => h) rfl (fun _ => ⟨nofun, nofun⟩)
    | main go ok => exact wild_main h go ok
    | msg m => exact wild_msg h m
    | rx go ok => exact wild_flush h go ok

theorem wild_init : Wild {} :=
  ⟨fun pre o post e => by simp at e, rfl, fun _ h => h.elim nofun nofun, by show 0 < 8; omega, rfl⟩

/-- **C141**, exactly, with session messages at any moment: no byte is lost, doubled or moved (the bytes of the objects sent, followed by the at most
eight not sent yet, are the bytes taken); every object has one to eight bytes; the number it is sent under is that of the last session opened, or
125 if that was closed, some session messages ago. -/
theorem C141_exact (es : List Evt) :
    (∃ rest, rest.length ≤ 8 ∧ taken (run {} es).log = given (run {} es).log ++ rest) ∧
    ∀ pre nr xs post, (run {} es).log = pre ++ .sent nr xs :: post →
      1 ≤ xs.length ∧ xs.length ≤ 8 ∧
      ∃ l1 l2, pre = l1 ++ l2 ∧ nr = num l1 ∧ ∀ o ∈ l2, Control o ∨ o = .wrong := by
  have h := wild_run es wild_init
  refine ⟨⟨unsent (run {} es), ?_, h.bytes.symm⟩, fun pre nr xs post e => h.fair pre _ post e⟩
  have r := h.room
  generalize run {} es = w at *
  obtain ⟨st, own, prim, tmp, pc, log⟩ := w
  cases pc with
  | none => exact Nat.le_of_lt r
  | some p =>
    cases p <;> first
      | exact Nat.zero_le _
      | exact Nat.le_of_lt r
      | exact Nat.le_of_eq r
      | exact r.2
      | exact Nat.le_of_lt r.2

/-! ## The windows -/

/-- **C141**, the window of the data, in any state: an object that is complete (or waits for room, `n` times without success) when the session is
closed is sent after the close under number 125; if another session is opened as well, the object goes to its partner. -/
theorem C141_window (w : TnlIrq) (hp : w.pc = some .putArg) (n : Nat) (nr p : Nat) :
    let wait := (List.replicate n [Evt.main true true, Evt.main true false]).flatten
    let a := w.run (wait ++ [.msg (.cls true), .main true true, .main true true])
    let b := w.run (wait ++ [.msg (.cls true), .msg (.opn nr p true), .main true true, .main true true])
    a.log = w.log ++ [.closed, .sent 125 w.tmp] ∧ a.st = .free ∧
    b.log = w.log ++ [.closed, .opened nr p, .sent nr w.tmp] ∧ b.st = .active := by
  have hw : ∀ n, w.run ((List.replicate n [Evt.main true true, Evt.main true false]).flatten) = w := by
    intro n
    induction n with
    | zero => rfl
    | succ n ih =>
      obtain ⟨st, own, prim, tmp, pc, log⟩ := w
      simp only at hp
      subst hp
      rw [List.replicate_succ, List.flatten_cons]
      unfold run at ih ⊢
      rw [List.foldl_append]
      exact ih
  have ha : ∀ es, w.run ((List.replicate n [Evt.main true true, Evt.main true false]).flatten ++ es) = w.run es := by
    intro es
    have := hw n
    unfold run at this ⊢
    rw [List.foldl_append, this]
  intro wait a b
  have ea : a = w.run [.msg (.cls true), .main true true, .main true true] := ha _
  have eb : b = w.run [.msg (.cls true), .msg (.opn nr p true), .main true true, .main true true] := ha _
  obtain ⟨st, own, prim, tmp, pc, log⟩ := w
  simp only at hp
  subst hp
  rw [ea, eb]
  simp [run, step, msg, main, freed]

/-- **C141**, the window of the processing: the same for a partly filled object. -/
theorem C141_window_process (w : TnlIrq) (hp : w.pc = some .flTime) (ht : 0 < w.tmp.length) (nr p : Nat) :
    (w.run [.msg (.cls true), .main true true, .main true true, .main true true]).log = w.log ++ [.closed, .sent 125 w.tmp] ∧
    (w.run [.msg (.cls true), .msg (.opn nr p true), .main true true, .main true true, .main true true]).log =
      w.log ++ [.closed, .opened nr p, .sent nr w.tmp] := by
  obtain ⟨st, own, prim, tmp, pc, log⟩ := w
  simp only at hp ht
  subst hp
  simp [run, step, msg, main, freed, ht]

/-- **C141**, the window of the shutdown: if the partner closes after the test of the state, module 125 asks module 125 to close, and the tunnel
waits for its answer. -/
theorem C141_window_shutdown (w : TnlIrq) (hp : w.pc = some .shSet) :
    let a := w.run [.msg (.cls true), .main true true, .main true true]
    a.log = w.log ++ [.closed, .closing, .closeReq 125 125] ∧ a.st = .shutdown ∧ a.own = 125 ∧ a.prim = 125 ∧ a.pc = none := by
  obtain ⟨st, own, prim, tmp, pc, log⟩ := w
  simp only at hp
  subst hp
  simp [run, step, msg, main, freed]

/-- a message that could end the waiting: a close request the port agrees to, or an answer of module 125 to module 125 -/
def Frees : Evt → Prop
  | .msg (.cls true) => True
  | .msg (.ack 125 125) => True
  | .msg (.deny 125 125) => True
  | _ => False

/-- the tunnel after the shutdown window -/
def Stuck (w : TnlIrq) : Prop :=
  w.st = .shutdown ∧ w.own = 125 ∧ w.prim = 125 ∧ (w.pc = none ∨ w.pc = some .flCheck ∨ w.pc = some .shCheck ∨ ∃ x, w.pc = some (.putCheck x))

theorem stuck_step {w : TnlIrq} (h : Stuck w) (e : Evt) (he : ¬ Frees e) :
    Stuck (w.step e) ∧ ∃ l, (w.step e).log = w.log ++ l ∧ ∀ o ∈ l, o = .denied ∨ o = .wrong := by
  obtain ⟨st, own, prim, tmp, pc, log⟩ := w
  obtain ⟨rfl, rfl, rfl, hp⟩ := h
  simp only at hp
  have same : ∀ pc, (pc = none ∨ pc = some .flCheck ∨ pc = some .shCheck ∨ ∃ x, pc = some (.putCheck x)) →
      Stuck ⟨.shutdown, 125, 125, tmp, pc, log⟩ ∧ ∃ l, log = log ++ l ∧ ∀ o ∈ l, o = .denied ∨ o = .wrong := fun pc hp =>
    ⟨⟨rfl, rfl, rfl, hp⟩, [], by simp, nofun⟩
  have obs : ∀ pc o, (pc = none ∨ pc = some .flCheck ∨ pc = some .shCheck ∨ ∃ x, pc = some (.putCheck x)) → (o = .denied ∨ o = .wrong) →
      Stuck ⟨.shutdown, 125, 125, tmp, pc, log ++ [o]⟩ ∧ ∃ l, log ++ [o] = log ++ l ∧ ∀ o ∈ l, o = .denied ∨ o = .wrong := fun pc o hp ho =>
    ⟨⟨rfl, rfl, rfl, hp⟩, [o], rfl, fun a ha => by rw [List.mem_singleton.1 ha]; exact ho⟩
  cases e with
  | putc x => simp only [step, call]; split <;> exact same _ (by first | exact hp | exact .inr (.inr (.inr ⟨x, rfl⟩)))
  | process => simp only [step, call]; split <;> exact same _ (by first | exact hp | exact .inr (.inl rfl))
  | shutdown => simp only [step, call]; split <;> exact same _ (by first | exact hp | exact .inr (.inr (.inl rfl)))
  | main go ok =>
    rcases hp with rfl | rfl | rfl | ⟨x, rfl⟩
    · exact same _ (.inl rfl)
    all_goals exact obs _ _ (.inl rfl) (.inr rfl)
  | msg m =>
    cases m with
    | opn nr p agree => exact obs _ _ hp (.inl rfl)
    | cls agree =>
      cases agree with
      | true => exact absurd trivial he
      | false => exact same _ hp
    | ack nr p =>
      simp only [step, msg]
      split
      · rename_i hc
        obtain ⟨_, rfl, rfl⟩ := hc
        exact absurd trivial he
      · exact same _ hp
    | deny nr p =>
      simp only [step, msg]
      split
      · rename_i hc
        obtain ⟨_, rfl, rfl⟩ := hc
        exact absurd trivial he
      · exact same _ hp
  | rx go ok =>
    simp only [step, flush]
    split
    · exact same _ hp
    · simp only [reduceCtorEq, if_false]
      exact obs _ _ hp (.inr rfl)

/-- **C141**, after the window of the shutdown the tunnel is blocked: until a close request comes, though there is no session to close (or module
125, which does not take part, answers), whatever else happens every open request is denied, nothing is taken or sent. -/
theorem C141_blocked (es : List Evt) : ∀ (w : TnlIrq), Stuck w → (∀ e ∈ es, ¬ Frees e) →
    Stuck (w.run es) ∧ ∃ l, (w.run es).log = w.log ++ l ∧ ∀ o ∈ l, o = .denied ∨ o = .wrong := by
  induction es with
  | nil => intro w h _; exact ⟨h, [], by simp [run], nofun⟩
  | cons e es ih =>
    intro w h he
    obtain ⟨h1, l1, e1, o1⟩ := stuck_step h e (he e (by simp))
    obtain ⟨h2, l2, e2, o2⟩ := ih (w.step e) h1 (fun a ha => he a (by simp [ha]))
    refine ⟨h2, l1 ++ l2, ?_, fun o ho => ?_⟩
    · show ((w.step e).run es).log = _
      rw [e2, e1]; simp
    · rcases List.mem_append.1 ho with ho | ho
      · exact o1 o ho
      · exact o2 o ho

/-! ## The steps without interrupts are the functions -/

/-- the tunnel's variables of the whole stack, between calls -/
def ofStack (s : Stack) (log : List TnlObs) : TnlIrq := ⟨s.tnl.state, s.tnl.own, s.tnl.prim, s.tnl.tmp, none, log⟩

theorem enqueue_t (env : AEnv) (s : Stack) (nr dlc : Nat) (src : List Byte) : (s.enqueue env nr dlc src).1.tnl = s.tnl := by
  unfold Stack.enqueue Stack.handlerTx Stack.handleQ
  dsimp only
  repeat' split
  all_goals first | rfl | (simp only [Stack.setNode])

theorem act_t (env : AEnv) (s : Stack) (a : Act) : (s.act env a).tnl = s.tnl := by
  cases a <;> first
    | rfl
    | (simp only [Stack.act, Stack.startAckn, Stack.endAckn, Stack.termination, Stack.versionAnswer, Stack.infoAnswer, Stack.uloadEnd]
       repeat' split
       all_goals rfl)

theorem callPort_t (env : AEnv) (s : Stack) (c : ACall) : (s.callPort env c).1.tnl = s.tnl := by
  have h : ∀ (as : List Act) (s : Stack), (as.foldl (Stack.act env) s).tnl = s.tnl := by
    intro as
    induction as with
    | nil => exact fun _ => rfl
    | cons a as ih => exact fun s => (ih _).trans (act_t env s a)
  exact (h _ _).trans rfl

/-- session variables and temporary object -/
def view (w : TnlIrq) : TState × Nat × Nat × List Byte := (w.st, w.own, w.prim, w.tmp)

/-- **C141**, the session messages in the receive interrupt do to the session what the handlers of the whole stack do: open, close, close
acknowledge and close deny, with the port's answers; and the temporary object is left alone. -/
theorem C141_steps_messages (env : AEnv) (s : Stack) (log : List TnlObs) (nr : Nat) (src : List Byte) :
    view (ofStack (s.tnlOpen env nr src).1 log) = view ((ofStack s log).msg (.opn nr (Slave.at8 src 1) ((s.callPort env .tnlOpen).2 = E.ok))) ∧
    view (ofStack (s.tnlCloseReq env nr src).1 log) = view ((ofStack s log).msg (.cls ((s.callPort env .tnlFree).2 = E.ok))) ∧
    view (ofStack (s.tnlCloseAck env nr src).1 log) = view ((ofStack s log).msg (.ack nr (Slave.at8 src 1))) ∧
    view (ofStack (s.tnlCloseDeny nr src) log) = view ((ofStack s log).msg (.deny nr (Slave.at8 src 1))) ∧
    ((ofStack s log).msg (.ack nr (Slave.at8 src 1))).log =
      log ++ if s.tnl.state = .shutdown ∧ s.tnl.prim = Slave.at8 src 1 ∧ s.tnl.own = nr then [.closed] else [] := by
  have hc : ∀ c, (s.callPort env c).1.tnl = s.tnl := callPort_t env s
  have ho : ∀ b, (ofStack s log).msg (.opn nr (Slave.at8 src 1) b) =
      if s.tnl.state = .free then
        if b then ⟨.active, nr, Slave.at8 src 1, s.tnl.tmp, none, log ++ [.opened nr (Slave.at8 src 1)]⟩ else ofStack s log
      else { ofStack s log with log := log ++ [.denied] } := fun _ => rfl
  have ha : (ofStack s log).msg (.ack nr (Slave.at8 src 1)) =
      if s.tnl.state = .shutdown ∧ s.tnl.prim = Slave.at8 src 1 ∧ s.tnl.own = nr then (ofStack s log).freed else ofStack s log := rfl
  have hd : (ofStack s log).msg (.deny nr (Slave.at8 src 1)) =
      if s.tnl.state = .shutdown ∧ s.tnl.prim = Slave.at8 src 1 ∧ s.tnl.own = nr then
        { ofStack s log with st := .active, log := log ++ [.resumed] } else ofStack s log := rfl
  have hv : ∀ t : Stack, t.tnl = s.tnl → view (ofStack t log) = view (ofStack s log) := by
    intro t ht; unfold ofStack; rw [ht]
  refine ⟨?_, ?_, ?_, ?_, ?_⟩
  · unfold Stack.tnlOpen
    rw [ho]
    by_cases h : s.tnl.state = .free
    · rw [if_pos h, if_pos h]
      by_cases k : (s.callPort env .tnlOpen).2 = E.ok
      · simp only [k, decide_true, if_true]
        split <;> (show (TState.active, nr, Slave.at8 src 1, (s.callPort env .tnlOpen).1.tnl.tmp) = _; rw [hc]; rfl)
      · rw [if_neg k, if_neg (by simpa using k)]
        exact hv _ (hc _)
    · rw [if_neg h, if_neg h]
      rfl
  · unfold Stack.tnlCloseReq
    by_cases k : (s.callPort env .tnlFree).2 = E.ok
    · simp only [msg, if_pos k, k, decide_true, if_true]
      show (TState.free, 125, 125, (s.callPort env .tnlFree).1.tnl.tmp) = _
      rw [hc]; rfl
    · simp only [msg, if_neg k, k, decide_false]
      exact hv _ (hc _)
  · unfold Stack.tnlCloseAck
    rw [ha]
    by_cases k : s.tnl.state = .shutdown ∧ s.tnl.prim = Slave.at8 src 1 ∧ s.tnl.own = nr
    · rw [if_pos k, if_pos k]
      show (TState.free, 125, 125, (s.callPort env .tnlFree).1.tnl.tmp) = _
      rw [hc]; rfl
    · rw [if_neg k, if_neg k]
  · unfold Stack.tnlCloseDeny
    rw [hd]
    by_cases k : s.tnl.state = .shutdown ∧ s.tnl.prim = Slave.at8 src 1 ∧ s.tnl.own = nr
    · rw [if_pos k, if_pos k]
      rfl
    · rw [if_neg k, if_neg k]
  · rw [ha]
    by_cases k : s.tnl.state = .shutdown ∧ s.tnl.prim = Slave.at8 src 1 ∧ s.tnl.own = nr
    · rw [if_pos k, if_pos k]
      rfl
    · rw [if_neg k, if_neg k]
      simp [ofStack]

/-- **C141**, a shutdown without interrupts inside is `can_async_tunnel_shutdown` of the whole stack. -/
theorem C141_steps_shutdown (env : AEnv) (s : Stack) (log : List TnlObs) :
    let w := (ofStack s log).run [.shutdown, .main true true, .main true true, .main true true]
    let t := (s.tnlShutdown env).1.tnl
    (w.st, w.own, w.prim, w.tmp, w.pc) = (t.state, t.own, t.prim, t.tmp, none) ∧
    w.log = log ++ if s.tnl.state = .active then [.closing, .closeReq s.tnl.own s.tnl.prim] else [.wrong] := by
  by_cases h : s.tnl.state = .active
  · have e : (s.tnlShutdown env).1.tnl = { s.tnl with state := .shutdown } := by
      simp [Stack.tnlShutdown, h, Stack.tnlClose, Stack.ctrlTx, Stack.setT, Stack.setNode]
    simp only [e]
    simp [run, step, call, main, ofStack, h]
  · simp [run, step, call, main, ofStack, h, Stack.tnlShutdown]

/-- **C141**, a `putc` without interrupts inside is `can_async_tunnel_putc` of the whole stack, up to the first attempt to hand over a full object;
the object gets the session's number. -/
theorem C141_steps_putc (env : AEnv) (s : Stack) (log : List TnlObs) (x : Byte) (hl : s.tnl.lock = 0) (ht : s.tnl.tmp.length < 8) :
    let wait : Bool := decide ((s.putc env x).2 = .waiting)
    let w := (ofStack s log).run (.putc x :: List.replicate (if wait then 5 else 6) (.main true !wait))
    let t := (s.putc env x).1.tnl
    (w.st, w.own, w.prim, w.tmp) = (t.state, t.own, t.prim, t.tmp) ∧ w.pc = (if wait then some .putArg else none) ∧
    w.log = log ++ if s.tnl.state = .active then
      .put x :: (if s.tnl.tmp.length = 7 ∧ wait = false then [.sent s.tnl.own (s.tnl.tmp ++ [x])] else []) else [.wrong] := by
  by_cases h : s.tnl.state = .active
  · by_cases h7 : s.tnl.tmp.length = 7
    · cases hc : (s.putc env x).2 with
      | waiting =>
        have e : (s.putc env x).1.tnl.state = s.tnl.state ∧ (s.putc env x).1.tnl.own = s.tnl.own ∧ (s.putc env x).1.tnl.prim = s.tnl.prim ∧
            (s.putc env x).1.tnl.tmp = s.tnl.tmp ++ [x] := by
          revert hc
          simp only [Stack.putc, hl, h, Stack.setT, List.length_append, h7, List.length_singleton, Stack.putcRetry]
          simp only [ne_eq, not_true, if_false, if_true]
          split
          · intro hc; cases hc
          · intro _; rw [enqueue_t]; simp [h]
        obtain ⟨e1, e2, e3, e4⟩ := e
        simp [run, step, call, main, ofStack, h, h7, e1, e2, e3, e4]
      | done err =>
        have e : (s.putc env x).1.tnl.state = s.tnl.state ∧ (s.putc env x).1.tnl.own = s.tnl.own ∧ (s.putc env x).1.tnl.prim = s.tnl.prim ∧
            (s.putc env x).1.tnl.tmp = [] := by
          revert hc
          simp only [Stack.putc, hl, h, Stack.setT, List.length_append, h7, List.length_singleton, Stack.putcRetry]
          simp only [ne_eq, not_true, if_false, if_true]
          split
          · intro _
            rw [enqueue_t]; simp [h]
          · intro hc; cases hc
        obtain ⟨e1, e2, e3, e4⟩ := e
        simp [run, step, call, main, ofStack, h, h7, e1, e2, e3, e4]
    · have e : s.putc env x = (s.setT fun t => { t with tmp := t.tmp ++ [x] }, .done E.ok) := by
        simp [Stack.putc, hl, h, Stack.setT, h7]
      simp [e, run, step, call, main, ofStack, h, h7, Stack.setT]
  · have e : s.putc env x = (s, .done E.tnlWrongState) := by simp [Stack.putc, hl, h]
    simp [e, run, step, call, main, ofStack, h]

/-- **C141**, a processing without interrupts inside, in the main loop or in the receive interrupt, is `can_async_tunnel_process_tx_data` of the
whole stack. -/
theorem C141_steps_process (env : AEnv) (s : Stack) (log : List TnlObs) (now : Nat) (hl : s.tnl.lock = 0) :
    let go : Bool := decide (u32 (s.tnl.tmp.length + env.ms2t 50) < now)
    let ok : Bool := decide ((s.enqueue env s.tnl.own s.tnl.tmp.length s.tnl.tmp).2 = E.ok)
    let w := (ofStack s log).run (.process :: List.replicate 5 (.main go ok))
    let t := (s.processTx env now).1.tnl
    (w.st, w.own, w.prim, w.tmp, w.pc) = (t.state, t.own, t.prim, t.tmp, none) ∧ w = (ofStack s log).flush go ok := by
  by_cases h : s.tnl.state = .active
  · by_cases ht : 0 < s.tnl.tmp.length
    · by_cases hg : u32 (s.tnl.tmp.length + env.ms2t 50) < now
      · by_cases ho : (s.enqueue env s.tnl.own s.tnl.tmp.length s.tnl.tmp).2 = E.ok
        · have e : (s.processTx env now).1.tnl = { s.tnl with tmp := [] } := by
            simp [Stack.processTx, hl, h, ht, hg, ho, Stack.setT, enqueue_t]
          simp [e, run, step, call, main, ofStack, h, ht, hg, ho, flush, locked]
        · have e : (s.processTx env now).1.tnl = s.tnl := by
            simp [Stack.processTx, hl, h, ht, hg, ho, enqueue_t]
          simp [e, run, step, call, main, ofStack, h, ht, hg, ho, flush, locked]
      · have e : s.processTx env now = (s, E.ok) := by simp [Stack.processTx, hl, h, hg]
        simp [e, run, step, call, main, ofStack, h, hg, flush, locked]
    · have e : s.processTx env now = (s, E.ok) := by simp [Stack.processTx, hl, h, ht]
      simp [e, run, step, call, main, ofStack, h, ht, flush, locked]
  · have e : s.processTx env now = (s, E.tnlWrongState) := by simp [Stack.processTx, hl, h]
    simp [e, run, step, call, main, ofStack, h, flush, locked]

/-! ## Examples -/

/-- `n` steps of the main loop -/
def steps (n : Nat) : List Evt := List.replicate n (.main true true)

/-- eight bytes are written in a session of module 3 with partner 20 -/
def exEight : List Evt := .msg (.opn 3 20 true) :: ((List.range 8).map fun i => Evt.putc (UInt8.ofNat i) :: steps 6).flatten

/-- session messages between the calls: an object is sent under number 3, the rest after a close denied by the partner -/
def exCalm : List Evt := exEight ++ [.putc 9] ++ steps 6 ++ [.shutdown] ++ steps 3 ++ [.msg (.deny 3 20), .process] ++ steps 6

/-- decides `Between` -/
def betweenB : TnlIrq → List Evt → Bool
  | _, [] => true
  | w, e :: es => (match e with | .msg _ => w.pc.isNone | _ => true) && betweenB (w.step e) es

theorem between_of (es : List Evt) : ∀ w, betweenB w es = true → Between w es := by
  induction es with
  | nil => intro w _; trivial
  | cons e es ih =>
    intro w h
    simp only [betweenB, Bool.and_eq_true] at h
    refine ⟨?_, ih _ h.2⟩
    rintro ⟨m, rfl⟩
    simpa using h.1

/-- the hypothesis of `C141_partial` in a history with sent objects -/
example : Between {} exCalm ∧ (run {} exCalm).log = [.opened 3 20, .put 0, .put 1, .put 2, .put 3, .put 4, .put 5, .put 6, .put 7,
    .sent 3 [0, 1, 2, 3, 4, 5, 6, 7], .put 9, .closing, .closeReq 3 20, .resumed, .sent 3 [9]] := by
  exact ⟨between_of _ _ (by decide +kernel), by decide +kernel⟩

/-- the eighth byte, up to the full object -/
def exSeven : List Evt := exEight.take (exEight.length - 3)

/-- hypothesis of `C141_window` -/
example : (run {} exSeven).pc = some .putArg ∧ (run {} exSeven).tmp = [0, 1, 2, 3, 4, 5, 6, 7] := by decide +kernel
/-- hypotheses of `C141_window_process` -/
example : let w := run {} ([.msg (.opn 3 20 true), .putc 9] ++ steps 6 ++ [.process] ++ steps 1)
    w.pc = some .flTime ∧ 0 < w.tmp.length := by decide +kernel
/-- hypothesis of `C141_window_shutdown`, and after the window that of `C141_blocked` -/
example : let w := run {} [.msg (.opn 3 20 true), .shutdown, .main true true]
    w.pc = some .shSet ∧ Stuck (w.run [.msg (.cls true), .main true true, .main true true]) :=
  ⟨rfl, rfl, rfl, rfl, .inl rfl⟩

/-- **C141**, counterexample: module 3 has acknowledged the close; then a data object of module 125 appears on the bus, with the identifier 0x7F3. -/
theorem C141_counterexample_stranger :
    let l := (run {} (exSeven ++ [.msg (.cls true)] ++ steps 3)).log
    l.drop 9 = [.closed, .sent 125 [0, 1, 2, 3, 4, 5, 6, 7]] ∧ sess (l.take 10) = .none ∧ asyncDataTxId 125 = 0x7F3 := by
  decide +kernel

/-- **C141**, counterexample: the bytes written for partner 20 are sent to partner 21, in the session of module 4. -/
theorem C141_counterexample_partner :
    let l := (run {} (exSeven ++ [.msg (.cls true), .msg (.opn 4 21 true)] ++ steps 3)).log
    l.drop 9 = [.closed, .opened 4 21, .sent 4 [0, 1, 2, 3, 4, 5, 6, 7]] := by
  decide +kernel

/-- **C141**, counterexample: a shutdown hit by the partner's close; the close request goes from 125 to 125, and afterwards open requests are denied
although there is no session, until a close request comes. -/
theorem C141_counterexample_blocked :
    let w := run {} ([.msg (.opn 3 20 true), .shutdown, .main true true, .msg (.cls true)] ++ steps 2 ++
      [.msg (.opn 3 20 true), .msg (.ack 3 20), .msg (.opn 4 21 true)])
    w.log = [.opened 3 20, .closed, .closing, .closeReq 125 125, .denied, .denied] ∧ sess w.log = .none ∧
    (w.run [.msg (.cls true), .msg (.opn 4 21 true)]).log.drop 6 = [.closed, .opened 4 21] := by
  decide +kernel

end TnlIrq
end LiCan
