import Verif.Model.FlowIrq
import Verif.Props.TnlIrq
/-! # Flow control of the tunnel while session messages arrive (C145) -/
namespace LiCan
namespace FlowIrq
namespace Spec

/-- The session as the observer knows it: module and partner, and whether it is being closed. -/
structure Sess where
  nr : Nat
  p : Nat
  closing : Bool
deriving DecidableEq

/-- what an observation does to it -/
def next (s : Option Sess) : FlowObs → Option Sess
  | .sess (.opened nr p) => some ⟨nr, p, false⟩
  | .sess .closed => none
  | .sess .closing => s.map fun x => { x with closing := true }
  | .sess .resumed => s.map fun x => { x with closing := false }
  | _ => s

def sess (l : List FlowObs) : Option Sess := l.foldl next none

/-- the module of the session, 125 without one -/
def nrOf (l : List FlowObs) : Nat := ((sess l).map Sess.nr).getD 125
/-- its partner, 125 without one -/
def partner (l : List FlowObs) : Nat := ((sess l).map Sess.p).getD 125

/-- a session that is not being closed -/
def Active (l : List FlowObs) : Prop := ∃ nr p, sess l = some ⟨nr, p, false⟩

/-- observations of session messages only -/
def Control (l : List FlowObs) : Prop := ∀ o ∈ l, ∃ x, o = .sess x

/-- the session messages come between the calls only -/
def Between : FlowIrq → List Evt → Prop
  | _, [] => True
  | w, e :: es => ((∃ m, e = .msg m) → w.pc = none) ∧ Between (w.step e) es

end Spec

open Spec

theorem sess_append (l : List FlowObs) (k : List FlowObs) : sess (l ++ k) = k.foldl next (sess l) := by simp [sess]

/-- what the node has is what the observer knows -/
def Shows (s : Option Sess) (t : TnlIrq) : Prop :=
  match s with
  | none => t.st = .free ∧ t.own = 125 ∧ t.prim = 125
  | some x => t.st = (if x.closing then .shutdown else .active) ∧ t.own = x.nr ∧ t.prim = x.p

theorem Shows.active {s : Option Sess} {t : TnlIrq} (h : Shows s t) : t.st = .active ↔ ∃ nr p, s = some ⟨nr, p, false⟩ := by
  cases s with
  | none =>
    rw [h.1]
    exact ⟨nofun, fun ⟨_, _, e⟩ => nomatch e⟩
  | some x =>
    obtain ⟨nr, p, c⟩ := x
    cases c
    · exact ⟨fun _ => ⟨nr, p, rfl⟩, fun _ => h.1⟩
    · rw [h.1]
      exact ⟨nofun, fun ⟨_, _, e⟩ => nomatch e⟩

theorem Shows.own {l : List FlowObs} {t : TnlIrq} (h : Shows (sess l) t) : t.own = nrOf l := by
  unfold nrOf
  cases hs : sess l with
  | none => rw [hs] at h; exact h.2.1
  | some x => rw [hs] at h; exact h.2.1

theorem Shows.prim {l : List FlowObs} {t : TnlIrq} (h : Shows (sess l) t) : t.prim = partner l := by
  unfold partner
  cases hs : sess l with
  | none => rw [hs] at h; exact h.2.2
  | some x => rw [hs] at h; exact h.2.2

/-- what a session message adds to the observations -/
theorem msg_log (t : TnlIrq) (m : TnlIrq.Msg) : (t.msg m).log = t.log ∨ ∃ o, (t.msg m).log = t.log ++ [o] := by
  cases m with
  | opn nr p a =>
    unfold TnlIrq.msg
    dsimp only
    split
    · split
      · exact .inr ⟨_, rfl⟩
      · exact .inl rfl
    · exact .inr ⟨_, rfl⟩
  | cls a =>
    unfold TnlIrq.msg
    dsimp only
    split
    · exact .inr ⟨_, rfl⟩
    · exact .inl rfl
  | ack nr p =>
    unfold TnlIrq.msg
    dsimp only
    split
    · exact .inr ⟨_, rfl⟩
    · exact .inl rfl
  | deny nr p =>
    unfold TnlIrq.msg
    dsimp only
    split
    · exact .inr ⟨_, rfl⟩
    · exact .inl rfl

/-- and what that does to the session -/
theorem msg_shows {s : Option Sess} {t : TnlIrq} (h : Shows s t) (m : TnlIrq.Msg) :
    Shows ((((t.msg m).log.drop t.log.length).map FlowObs.sess).foldl next s) (t.msg m) := by
  have one : ∀ o, (List.drop t.log.length (t.log ++ [o])).map FlowObs.sess = [.sess o] := by intro o; simp
  have zero : (List.drop t.log.length t.log).map FlowObs.sess = [] := by simp
  cases m with
  | opn nr p a =>
    unfold TnlIrq.msg
    dsimp only
    split
    · split
      · rw [one]; exact ⟨rfl, rfl, rfl⟩
      · rw [zero]; exact h
    · rw [one]; exact h
  | cls a =>
    unfold TnlIrq.msg TnlIrq.freed
    dsimp only
    split
    · rw [one]; exact ⟨rfl, rfl, rfl⟩
    · rw [zero]; exact h
  | ack nr p =>
    unfold TnlIrq.msg TnlIrq.freed
    dsimp only
    split
    · rw [one]; exact ⟨rfl, rfl, rfl⟩
    · rw [zero]; exact h
  | deny nr p =>
    unfold TnlIrq.msg
    dsimp only
    split
    · rename_i hc
      rw [one]
      cases s with
      | none => rw [h.1] at hc; exact absurd hc.1 nofun
      | some x => exact ⟨rfl, h.2.1, h.2.2⟩
    · rw [zero]; exact h

/-! ## The calls at any moment -/

/-- what the call in progress has read, and when -/
def Held (l : List FlowObs) : Option FlowPc → Prop
  | none | some (.check _) => True
  | some (.prim _) => ∃ l0 k0, l = l0 ++ k0 ∧ Active l0 ∧ Control k0
  | some (.own _ p) => ∃ l0 k0 k1, l = l0 ++ k0 ++ k1 ∧ Active l0 ∧ p = partner (l0 ++ k0) ∧ Control k0 ∧ Control k1
  | some (.send _ p nr) => ∃ l0 k0 k1 k2, l = l0 ++ k0 ++ k1 ++ k2 ∧ Active l0 ∧ p = partner (l0 ++ k0) ∧
      nr = nrOf (l0 ++ k0 ++ k1) ∧ Control k0 ∧ Control k1 ∧ Control k2

/-- what may be observed after `l` -/
def Fair (l : List FlowObs) : FlowObs → Prop
  | .flow _ nr p => ∃ l0 k0 k1 k2, l = l0 ++ k0 ++ k1 ++ k2 ∧ Active l0 ∧ p = partner (l0 ++ k0) ∧
      nr = nrOf (l0 ++ k0 ++ k1) ∧ Control k0 ∧ Control k1 ∧ Control k2
  | .wrong => ¬ Active l
  | .sess _ => True

def Each (P : List FlowObs → FlowObs → Prop) (l : List FlowObs) : Prop := ∀ pre o post, l = pre ++ o :: post → P pre o

theorem each_snoc {P : List FlowObs → FlowObs → Prop} {l : List FlowObs} {o : FlowObs} (h : Each P l) (ho : P l o) : Each P (l ++ [o]) := by
  intro pre a post e
  rcases List.eq_nil_or_concat post with rfl | ⟨post', b, rfl⟩
  · have := List.append_inj' e (by simp)
    obtain ⟨rfl, h2⟩ := this
    simp at h2
    subst h2
    exact ho
  · have e' : l ++ [o] = (pre ++ a :: post') ++ [b] := by simp [e]
    exact h pre a post' (List.append_inj' e' rfl).1

theorem each_control {P : List FlowObs → FlowObs → Prop} (hP : ∀ l x, P l (.sess x)) {l : List FlowObs} (h : Each P l)
    (k : List FlowObs) : Control k → Each P (l ++ k) := by
  induction k generalizing l with
  | nil => intro _; rw [List.append_nil]; exact h
  | cons o k ih =>
    intro hk
    obtain ⟨x, rfl⟩ := hk o (List.mem_cons_self ..)
    have := ih (each_snoc h (hP l x)) (fun o ho => hk o (List.mem_cons_of_mem _ ho))
    rw [List.append_assoc] at this
    exact this

theorem control_nil : Control [] := by intro o ho; cases ho
theorem control_append {a b : List FlowObs} (ha : Control a) (hb : Control b) : Control (a ++ b) := by
  intro o ho
  rcases List.mem_append.1 ho with h | h
  · exact ha o h
  · exact hb o h

theorem held_control {l : List FlowObs} {pc : Option FlowPc} (h : Held l pc) {k : List FlowObs} (hk : Control k) : Held (l ++ k) pc := by
  match pc with
  | none | some (.check _) => trivial
  | some (.prim _) =>
    obtain ⟨l0, k0, rfl, ha, hc⟩ := h
    exact ⟨l0, k0 ++ k, by simp, ha, control_append hc hk⟩
  | some (.own _ p) =>
    obtain ⟨l0, k0, k1, rfl, ha, hp, h0, h1⟩ := h
    exact ⟨l0, k0, k1 ++ k, by simp, ha, hp, h0, control_append h1 hk⟩
  | some (.send _ p nr) =>
    obtain ⟨l0, k0, k1, k2, rfl, ha, hp, hn, h0, h1, h2⟩ := h
    exact ⟨l0, k0, k1, k2 ++ k, by simp, ha, hp, hn, h0, h1, control_append h2 hk⟩

structure Inv (w : FlowIrq) : Prop where
  shows : Shows (sess w.log) w.t
  held : Held w.log w.pc
  fair : Each Fair w.log

theorem Inv.init : Inv {} :=
  ⟨⟨rfl, rfl, rfl⟩, trivial, fun pre o post e => by
    have := congrArg List.length e
    simp at this⟩

theorem Inv.main {w : FlowIrq} (h : Inv w) : Inv w.main := by
  obtain ⟨t, pc, log⟩ := w
  obtain ⟨hs, hh, hf⟩ := h
  dsimp only at hs hh hf
  match pc with
  | none => exact ⟨hs, hh, hf⟩
  | some (.check on) =>
    unfold FlowIrq.main
    dsimp only
    by_cases ha : t.st = .active
    · rw [if_pos ha]
      exact ⟨hs, ⟨log, [], by simp, hs.active.1 ha, control_nil⟩, hf⟩
    · rw [if_neg ha]
      refine ⟨?_, trivial, each_snoc hf (fun k => ha (hs.active.2 k))⟩
      dsimp only
      rw [sess_append]; exact hs
  | some (.prim on) =>
    obtain ⟨l0, k0, rfl, ha, hc⟩ := hh
    exact ⟨hs, ⟨l0, k0, [], (List.append_nil _).symm, ha, hs.prim, hc, control_nil⟩, hf⟩
  | some (.own on p) =>
    obtain ⟨l0, k0, k1, rfl, ha, hp, h0, h1⟩ := hh
    exact ⟨hs, ⟨l0, k0, k1, [], (List.append_nil _).symm, ha, hp, hs.own, h0, h1, control_nil⟩, hf⟩
  | some (.send on p nr) =>
    refine ⟨?_, trivial, each_snoc hf hh⟩
    show Shows (sess (log ++ [.flow on nr p])) t
    rw [sess_append]; exact hs

theorem control_msg (t : TnlIrq) (m : TnlIrq.Msg) : Control (((t.msg m).log.drop t.log.length).map FlowObs.sess) := by
  intro o ho
  obtain ⟨x, -, e⟩ := List.mem_map.1 ho
  exact ⟨x, e.symm⟩

theorem Inv.msg {w : FlowIrq} (h : Inv w) (m : TnlIrq.Msg) : Inv (w.msg m) := by
  have hc := control_msg w.t m
  refine ⟨?_, held_control h.held hc, each_control (fun _ _ => trivial) h.fair _ hc⟩
  show Shows (sess (w.log ++ _)) (w.t.msg m)
  rw [sess_append]
  exact msg_shows h.shows m

theorem Inv.step {w : FlowIrq} (h : Inv w) (e : Evt) : Inv (w.step e) := by
  cases e with
  | call on =>
    unfold FlowIrq.step
    dsimp only
    split
    · exact ⟨h.shows, trivial, h.fair⟩
    · exact h
  | main => exact h.main
  | msg m => exact h.msg m
  | shutdown =>
    unfold FlowIrq.step
    dsimp only
    split
    · rename_i hc
      refine ⟨?_, ?_, each_snoc h.fair trivial⟩
      · show Shows (sess (w.log ++ [.sess .closing])) { w.t with st := .shutdown }
        rw [sess_append]
        obtain ⟨nr, p, e⟩ := h.shows.active.1 hc.2
        have := h.shows
        rw [e] at this ⊢
        exact ⟨rfl, this.2.1, this.2.2⟩
      · show Held (w.log ++ [.sess .closing]) w.pc
        rw [hc.1]; trivial
    · exact h

theorem Inv.run (es : List Evt) : ∀ {w : FlowIrq}, Inv w → Inv (w.run es) := by
  induction es with
  | nil => intro w h; exact h
  | cons e es ih => intro w h; exact ih (h.step e)

/-- C145, exactly, whatever arrives at whatever moment: a flow control message is sent only by a call that found a session active;
its partner is the one at a later moment and its module the one at a still later moment (125 if there is no session then), and
between these moments only session messages were handled.  A call returns WRONG_STATE only if there is no active session. -/
theorem C145_exact (es : List Evt) (pre post : List FlowObs) :
    (∀ on nr p, (run {} es).log = pre ++ .flow on nr p :: post →
      ∃ l0 k0 k1 k2, pre = l0 ++ k0 ++ k1 ++ k2 ∧ Active l0 ∧ p = partner (l0 ++ k0) ∧ nr = nrOf (l0 ++ k0 ++ k1) ∧
        Control k0 ∧ Control k1 ∧ Control k2) ∧
    ((run {} es).log = pre ++ .wrong :: post → ¬ Active pre) :=
  ⟨fun on nr p e => (Inv.run es Inv.init).fair pre (.flow on nr p) post e, fun e => (Inv.run es Inv.init).fair pre .wrong post e⟩

/-- C145, the window: between the two reads the partner closes and another opens a session: the message goes to the old partner under
the number of the new session's module; if none opens one, module 125 sends it. -/
theorem C145_window (w : FlowIrq) (on : Bool) (hp : w.pc = some (.prim on)) (nr p : Nat) :
    (w.run [.main, .msg (.cls true), .msg (.opn nr p true), .main, .main]).log =
      w.log ++ [.sess .closed, .sess (.opened nr p), .flow on nr w.t.prim] ∧
    (w.run [.main, .msg (.cls true), .main, .main]).log = w.log ++ [.sess .closed, .flow on 125 w.t.prim] ∧
    (w.run [.msg (.cls true), .main, .main, .main]).log = w.log ++ [.sess .closed, .flow on 125 125] ∧
    (w.run [.msg (.cls true), .msg (.opn nr p true), .main, .main, .main]).log =
      w.log ++ [.sess .closed, .sess (.opened nr p), .flow on nr p] := by
  obtain ⟨t, pc, log⟩ := w
  dsimp only at hp
  subst hp
  simp [run, step, msg, main, TnlIrq.msg, TnlIrq.freed]

/-- C145, a call without interruption, after any history: in an active session one message from its module to its partner; otherwise nothing is
sent and WRONG_STATE is returned. -/
theorem C145_call (es : List Evt) (h0 : (run {} es).pc = none) (on : Bool) :
    (run {} (es ++ [.call on, .main, .main, .main, .main])).log = (run {} es).log ++
      (match sess (run {} es).log with
        | some ⟨nr, p, false⟩ => [.flow on nr p]
        | _ => [.wrong]) := by
  have hs := (Inv.run es Inv.init).shows
  rw [show run {} (es ++ [.call on, .main, .main, .main, .main]) = (run {} es).run [.call on, .main, .main, .main, .main] from
    List.foldl_append ..]
  generalize run {} es = w at *
  obtain ⟨t, pc, log⟩ := w
  dsimp only at h0 hs ⊢
  subst h0
  cases hl : sess log with
  | none =>
    rw [hl] at hs
    have : t.st ≠ .active := by rw [hs.1]; nofun
    simp [run, step, main, this]
  | some x =>
    obtain ⟨nr, p, c⟩ := x
    rw [hl] at hs
    cases c
    · obtain ⟨h1, h2, h3⟩ := hs
      have h1 : t.st = .active := h1
      simp [run, step, main, h1, h2, h3]
    · have : t.st ≠ .active := by rw [hs.1]; nofun
      simp [run, step, main, this]

/-! ## Messages between the calls only -/

/-- the call in progress has read the present session -/
def Fresh (l : List FlowObs) : Option FlowPc → Prop
  | none | some (.check _) => True
  | some (.prim _) => Active l
  | some (.own _ p) => ∃ nr, sess l = some ⟨nr, p, false⟩
  | some (.send _ p nr) => sess l = some ⟨nr, p, false⟩

def Good (l : List FlowObs) : FlowObs → Prop
  | .flow _ nr p => sess l = some ⟨nr, p, false⟩
  | .wrong => ¬ Active l
  | .sess _ => True

structure Calm (w : FlowIrq) : Prop where
  shows : Shows (sess w.log) w.t
  fresh : Fresh w.log w.pc
  good : Each Good w.log

theorem Calm.step {w : FlowIrq} (h : Calm w) (e : Evt) (hb : (∃ m, e = .msg m) → w.pc = none) : Calm (w.step e) := by
  obtain ⟨t, pc, log⟩ := w
  obtain ⟨hs, hh, hg⟩ := h
  dsimp only at hs hh hg hb
  cases e with
  | call on =>
    unfold FlowIrq.step
    dsimp only
    split
    · exact ⟨hs, trivial, hg⟩
    · exact ⟨hs, hh, hg⟩
  | main =>
    show Calm (FlowIrq.main ⟨t, pc, log⟩)
    match pc with
    | none => exact ⟨hs, hh, hg⟩
    | some (.check on) =>
      unfold FlowIrq.main
      dsimp only
      by_cases ha : t.st = .active
      · rw [if_pos ha]; exact ⟨hs, hs.active.1 ha, hg⟩
      · rw [if_neg ha]
        refine ⟨?_, trivial, each_snoc hg (fun k => ha (hs.active.2 k))⟩
        dsimp only
        rw [sess_append]; exact hs
    | some (.prim on) =>
      obtain ⟨nr, p, e⟩ := hh
      refine ⟨hs, ⟨nr, ?_⟩, hg⟩
      rw [e] at hs
      dsimp only at hs ⊢
      rw [hs.2.2]; exact e
    | some (.own on p) =>
      obtain ⟨nr, e⟩ := hh
      refine ⟨hs, ?_, hg⟩
      rw [e] at hs
      show sess log = some ⟨t.own, p, false⟩
      rw [hs.2.1]; exact e
    | some (.send on p nr) =>
      refine ⟨?_, trivial, each_snoc hg hh⟩
      show Shows (sess (log ++ [.flow on nr p])) t
      rw [sess_append]; exact hs
  | msg m =>
    have hp := hb ⟨m, rfl⟩
    subst hp
    have hc := control_msg t m
    refine ⟨?_, trivial, each_control (fun _ _ => trivial) hg _ hc⟩
    show Shows (sess (log ++ _)) (t.msg m)
    rw [sess_append]
    exact msg_shows hs m
  | shutdown =>
    unfold FlowIrq.step
    dsimp only
    split
    · rename_i hc
      obtain ⟨rfl, hc⟩ := hc
      refine ⟨?_, trivial, each_snoc hg trivial⟩
      show Shows (sess (log ++ [.sess .closing])) { t with st := .shutdown }
      rw [sess_append]
      obtain ⟨nr, p, e⟩ := hs.active.1 hc
      rw [e] at hs ⊢
      exact ⟨rfl, hs.2.1, hs.2.2⟩
    · exact ⟨hs, hh, hg⟩

theorem Calm.run (es : List Evt) : ∀ {w : FlowIrq}, Calm w → Between w es → Calm (w.run es) := by
  induction es with
  | nil => intro w h _; exact h
  | cons e es ih => intro w h hb; exact ih (h.step e hb.1) hb.2

/-- C145, as far as it holds: if session messages come between the calls only, every flow control message goes from the module of the
active session to its partner, and a call returns WRONG_STATE exactly when it finds no active session.  Missing: session messages within a
call. -/
theorem C145_partial (es : List Evt) (hb : Between {} es) (pre post : List FlowObs) :
    (∀ on nr p, (run {} es).log = pre ++ .flow on nr p :: post → sess pre = some ⟨nr, p, false⟩) ∧
    ((run {} es).log = pre ++ .wrong :: post → ¬ Active pre) := by
  have h0 : Calm {} := ⟨⟨rfl, rfl, rfl⟩, trivial, fun pre o post e => by
    have := congrArg List.length e
    simp at this⟩
  have h := Calm.run es h0 hb
  exact ⟨fun on nr p e => h.good pre (.flow on nr p) post e, fun e => h.good pre .wrong post e⟩

/-! ## Cases -/

/-- C145: a session of module 7 with 60, XOFF and XON in it, shutdown, a refused XOFF -/
def exCalm : List Evt := [.msg (.opn 7 60 true), .call false, .main, .main, .main, .main, .call true, .main, .main, .main, .main,
  .shutdown, .call false, .main]

example : Between {} exCalm ∧ (run {} exCalm).log =
    [.sess (.opened 7 60), .flow false 7 60, .flow true 7 60, .sess .closing, .wrong] := by
  refine ⟨?_, by decide +kernel⟩
  simp [exCalm, Between, step]

/-- C145, the steps without an interruption are `Stack.xonOff`: it returns the error exactly if the steps note `wrong`, and then sends nothing;
otherwise the one message it sends is the noted one. -/
theorem C145_steps (env : AEnv) (s : Stack) (l : List TnlObs) (log : List FlowObs) (on : Bool) (code : Byte) :
    let w : FlowIrq := ⟨TnlIrq.ofStack s l, none, log⟩
    let r := s.xonOff env code
    (r.2 = E.tnlWrongState ∧ r.1 = s ∧ w.run [.call on, .main] = { w with log := log ++ [.wrong] } ∨
     r.2 = E.ok ∧ ∃ nr p, w.run [.call on, .main, .main, .main, .main] = { w with log := log ++ [.flow on nr p] } ∧
       r.1 = s.ctrlTx env nr [code, Slave.byteOf p 0, 0, 0, 0, 0, 0, 0]) := by
  intro w r
  by_cases h : s.tnl.state = .active
  · refine .inr ⟨?_, s.tnl.own, s.tnl.prim, ?_, ?_⟩
    · show (if s.tnl.state ≠ .active then _ else _ : Stack × Err).2 = _
      rw [if_neg (fun k => k h)]
    · show main (main (main (main ⟨TnlIrq.ofStack s l, some (.check on), log⟩))) = _
      have e : main ⟨TnlIrq.ofStack s l, some (.check on), log⟩ = ⟨TnlIrq.ofStack s l, some (.prim on), log⟩ := by
        show (if s.tnl.state = .active then _ else _ : FlowIrq) = _
        rw [if_pos h]
      rw [e]; rfl
    · show (if s.tnl.state ≠ .active then _ else _ : Stack × Err).1 = _
      rw [if_neg (fun k => k h)]
  · refine .inl ⟨?_, ?_, ?_⟩
    · show (if s.tnl.state ≠ .active then _ else _ : Stack × Err).2 = _
      rw [if_pos h]
    · show (if s.tnl.state ≠ .active then _ else _ : Stack × Err).1 = _
      rw [if_pos h]
    · show (if s.tnl.state = .active then _ else _ : FlowIrq) = _
      rw [if_neg h]
      rfl

/-- an active session of module 7 with partner 60: XON is sent under 7 and names 60 -/
example (env : AEnv) (s : Stack) (h : s.tnl.state = .active ∧ s.tnl.own = 7 ∧ s.tnl.prim = 60) :
    (s.xonOff env 0x0A).1 = s.ctrlTx env 7 [0x0A, 60, 0, 0, 0, 0, 0, 0] := by
  rcases C145_steps env s [] [] true 0x0A with ⟨k, -, -⟩ | ⟨-, nr, p, k1, k2⟩
  · have e : s.xonOff env 0x0A = if s.tnl.state ≠ .active then (s, E.tnlWrongState) else _ := rfl
    rw [e, if_neg (fun g => g h.1)] at k
    exact absurd k (show ¬ E.ok = E.tnlWrongState by decide)
  · rw [k2]
    have := congrArg FlowIrq.log k1
    have e : main ⟨TnlIrq.ofStack s [], some (.check true), []⟩ = ⟨TnlIrq.ofStack s [], some (.prim true), []⟩ := by
      show (if s.tnl.state = .active then _ else _ : FlowIrq) = _
      rw [if_pos h.1]
    have k : (main (main (main (main ⟨TnlIrq.ofStack s [], some (.check true), []⟩)))).log = [.flow true nr p] := this
    rw [e] at k
    have k : [FlowObs.flow true s.tnl.own s.tnl.prim] = [.flow true nr p] := k
    rw [h.2.1, h.2.2] at k
    injection k with k _
    injection k with _ e1 e2
    rw [← e1, ← e2]; rfl

/-- C145 is false: the XOFF for the partner 60 is sent by module 9, whose session is with 61; the partner 61 is not stopped.  And module
125, which no node has, stops 60. -/
theorem C145_counterexample :
    (run {} [.msg (.opn 7 60 true), .call false, .main, .main, .msg (.cls true), .msg (.opn 9 61 true), .main, .main]).log =
      [.sess (.opened 7 60), .sess .closed, .sess (.opened 9 61), .flow false 9 60] ∧
    (run {} [.msg (.opn 7 60 true), .call false, .main, .main, .msg (.cls true), .main, .main]).log =
      [.sess (.opened 7 60), .sess .closed, .flow false 125 60] := by decide +kernel

end FlowIrq
end LiCan
