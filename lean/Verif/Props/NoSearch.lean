import Verif.Model.NoSearch
import Verif.Props.Operation
/-!
# Stack without automatic baud rate search: C128
-/
namespace LiCan.Stack
open Spec
open Node (exMem)
variable {env : AEnv}

/-- the calls `lcsa_start` without search consists of -/
def startCalls (env : AEnv) (s : Stack) : List SIn :=
  let s1 := (s.nodeMode env .stopped).1
  let r := s1.baudRate env s1.slv.link.startup
  [.api (.setMode .stopped), .setBaud s1.slv.link.startup] ++
    if r.2 = E.ok then
      let q := r.1.nodeMode env .operational
      .api (.setMode .operational) ::
        if q.2 = E.ok then
          .setState .running ::
            if q.1.info.d.mode = 3 then [.act (.endAckn q.1.info.d.comp.nr), .info (.mode 4), .setState .running] else []
        else []
    else []

/-- the same for every input: an error on the bus is no event, the callbacks of the search do not exist -/
def callsFor (env : AEnv) (s : Stack) : SIn → List SIn
  | .process now _ _ => [.process now .active .none]
  | .start _ => startCalls env s
  | .rcCb _ _ => []
  | i => [i]

/-- the calls a history of the stack without search consists of -/
def callsOf (env : AEnv) : Stack → List SIn → List SIn
  | _, [] => []
  | s, i :: is => callsFor env s i ++
    match s.stepN env i with
    | some t => callsOf env t is
    | none => []

/-- as long as no search runs, the handlers are those without search -/
theorem rx_off {s : Stack} (h : s.rc.state = .off) (now obj dlc id : Nat) (ext : Bool) (data : List Byte) :
    s.rx env now obj dlc id ext data = s.rxN env now obj dlc id ext data := by
  unfold rx rxN
  dsimp only
  rw [if_neg (fun e => e (show (s.setR _).rc.state = _ from h))]

theorem process_off {s : Stack} (h : s.rc.state = .off) (now : Nat) (bus : BusState) (lec : Lec) :
    s.process env now .active .none = s.processN env now bus lec := by
  unfold process processN
  dsimp only
  have : ({ s with slv := s.slv.trigger env.toEnv now } : Stack).hwError env now .active .none =
      { s with slv := s.slv.trigger env.toEnv now } := by
    have h' : ({ s with slv := s.slv.trigger env.toEnv now } : Stack).rc.state = .off := h
    generalize ({ s with slv := s.slv.trigger env.toEnv now } : Stack) = t at h' ⊢
    unfold hwError
    dsimp only
    rw [if_neg (c := (BusState.active ≠ .active ∨ Lec.none ≠ .none) ∧ t.rc.state = .off) (by simp), if_neg (fun e => e h')]
  rw [this]

theorem startN_calls (env : AEnv) (s : Stack) : s.run env (startCalls env s) = some (s.startN env).1 := by
  unfold startCalls startN
  dsimp only
  have h1 : s.step env (.api (.setMode .stopped)) = some (s.nodeMode env .stopped).1 := rfl
  generalize (s.nodeMode env .stopped).1 = s1 at h1 ⊢
  have h2 : s1.step env (.setBaud s1.slv.link.startup) = some (s1.baudRate env s1.slv.link.startup).1 := rfl
  generalize s1.baudRate env s1.slv.link.startup = r at h2 ⊢
  simp only [List.cons_append, List.nil_append, run, h1, h2, Option.bind_some]
  by_cases hr : r.2 = E.ok
  · rw [if_pos hr, if_pos hr]
    have h3 : r.1.step env (.api (.setMode .operational)) = some (r.1.nodeMode env .operational).1 := rfl
    generalize r.1.nodeMode env .operational = q at h3 ⊢
    simp only [run, h3, Option.bind_some]
    by_cases hq : q.2 = E.ok
    · rw [if_pos hq]
      rw [if_pos (c := q.2 = E.ok) hq]
      dsimp only
      rw [if_pos hq]
      have h4 : ∀ t : Stack, t.step env (.setState .running) = some { t with lcsa := .running } := fun _ => rfl
      simp only [run, h4, Option.bind_some]
      unfold startAck
      dsimp only
      split
      · rfl
      · rfl
    · rw [if_neg hq]
      simp only [hq, if_false]
      rfl
  · rw [if_neg hr, if_neg hr]
    simp only [hr, if_false]
    rfl

theorem startN_rc (env : AEnv) (s : Stack) : (s.startN env).1.rc = s.rc := by
  unfold startN
  dsimp only
  have key : ∀ r : Stack × Err, r.1.rc = s.rc →
      (if r.2 = E.ok then ({ r.1.startAck env with lcsa := .running }, E.ok) else r).1.rc = s.rc := by
    intro r h
    split
    · exact (startAck_keep env r.1).1.trans h
    · exact h
  refine key _ ?_
  split
  · split
    · exact rfl
    · exact rfl
  · exact rfl

/-- there is never a search -/
theorem stepN_off {s s' : Stack} {i : SIn} (h : s.rc.state = .off) (hs : s.stepN env i = some s') : s'.rc.state = .off := by
  by_cases h1 : ∃ now bus lec, i = .process now bus lec
  · obtain ⟨now, bus, lec, rfl⟩ := h1
    injection hs with hs
    rw [← hs]
    unfold processN
    exact (congrArg Recon.state (Keep.processTx env _ now).1).trans h
  by_cases h2 : ∃ now, i = .start now
  · obtain ⟨now, rfl⟩ := h2
    injection hs with hs
    rw [← hs, startN_rc]; exact h
  by_cases h3 : ∃ k f, i = .rcCb k f
  · obtain ⟨k, f, rfl⟩ := h3
    injection hs with hs
    rw [← hs]; exact h
  have hst : s.step env i = some s' := by
    cases i with
    | process now bus lec => exact absurd ⟨now, bus, lec, rfl⟩ h1
    | start now => exact absurd ⟨now, rfl⟩ h2
    | rcCb k f => exact absurd ⟨k, f, rfl⟩ h3
    | rx now obj dlc id ext data => exact (rx_off h ..).trans hs
    | _ => exact hs
  by_cases h4 : noMode i = true
  · obtain ⟨⟨p, a, b, c, d, -, e⟩, -⟩ := other_same hst (fun now bus lec e => h1 ⟨now, bus, lec, e⟩) (fun now e => h2 ⟨now, e⟩) h4
    rw [e]; exact h
  · cases i with
    | api j =>
      cases j with
      | setMode m =>
        injection hst with hst
        rw [← hst]; exact h
      | _ => exact absurd rfl h4
    | _ => exact absurd rfl h4

/-- one input without search is what its calls are in the stack with search -/
theorem stepN_calls {s : Stack} (h : s.rc.state = .off) (i : SIn) : s.run env (callsFor env s i) = s.stepN env i := by
  have one : ∀ j : SIn, s.run env [j] = s.step env j := by
    intro j
    simp only [run]
    cases s.step env j <;> rfl
  cases i with
  | process now bus lec =>
    show s.run env [.process now .active .none] = _
    rw [one]
    exact congrArg some (process_off h now bus lec)
  | start now => exact startN_calls env s
  | rcCb k f => rfl
  | rx now obj dlc id ext data => exact (one _).trans (rx_off h ..)
  | _ => exact one _

/-- **C128.**  A history of the stack without search is a history of the stack with search in which `lcsa_start` is
replaced by the calls it consists of, and nobody ever sees an error on the bus: same states, same frames, same calls
of the application.  So all claims about histories of the stack hold for it, too. -/
theorem C128_same_as_calls (is : List SIn) : ∀ s : Stack, s.rc.state = .off →
    s.runN env is = s.run env (callsOf env s is) ∧
    ∀ j ∈ callsOf env s is, (∀ now, j ≠ .start now) ∧ ∀ now bus lec, j = .process now bus lec → bus = .active ∧ lec = .none := by
  induction is with
  | nil => exact fun s _ => ⟨rfl, fun j hj => absurd hj (List.not_mem_nil)⟩
  | cons i is ih =>
    intro s h
    have own : ∀ j ∈ callsFor env s i, (∀ now, j ≠ .start now) ∧ ∀ now bus lec, j = .process now bus lec → bus = .active ∧ lec = .none := by
      intro j hj
      cases i with
      | process now bus lec =>
        simp only [callsFor, List.mem_singleton] at hj
        subst hj
        refine ⟨fun _ e => (by cases e), fun _ _ _ e => ?_⟩
        cases e; exact ⟨rfl, rfl⟩
      | start now =>
        simp only [callsFor, startCalls] at hj
        refine ⟨fun now e => ?_, fun now bus lec e => ?_⟩
        · subst e
          repeat' split at hj
          all_goals simp at hj
        · subst e
          repeat' split at hj
          all_goals simp at hj
      | rcCb k f => simp [callsFor] at hj
      | _ =>
        simp only [callsFor, List.mem_singleton] at hj
        subst hj
        exact ⟨fun _ e => (by cases e), fun _ _ _ e => (by cases e)⟩
    simp only [runN, callsOf]
    cases hs : s.stepN env i with
    | none =>
      refine ⟨?_, ?_⟩
      · simp only [Option.bind_none, List.append_nil]
        rw [stepN_calls h i, hs]
      · simpa using own
    | some t =>
      obtain ⟨a, b⟩ := ih t (stepN_off h hs)
      refine ⟨?_, fun j hj => ?_⟩
      · rw [run_app, stepN_calls h i, hs]
        exact a
      · rcases List.mem_append.1 hj with hj | hj
        · exact own j hj
        · exact b j hj

/-- the link after `lcsa_start`: the second of the two calls of the driver decides -/
theorem startN_link (env : AEnv) (s : Stack) :
    (s.startN env).2 = (if env.modeOk (s.slv.link.modeN + 1) then E.ok else E.notImplemented) ∧
    (s.startN env).1.slv.link.mode = .operational ∧
    (s.startN env).1.slv.link.modeN = s.slv.link.modeN + 2 ∧
    (env.modeOk (s.slv.link.modeN + 1) → (s.startN env).1.slv.link.drv = .start ∧ (s.startN env).1.lcsa = .running) ∧
    (s.startN env).1.slv.link.hwRate = (if s.slv.link.startup ∈ rates then s.slv.link.startup else s.slv.link.hwRate) ∧
    (s.startN env).1.slv.link.cur = (if s.slv.link.startup ∈ rates then s.slv.link.startup else s.slv.link.cur) ∧
    (¬ env.modeOk (s.slv.link.modeN + 1) → (s.startN env).1.lcsa = s.lcsa) := by
  have hS : ∀ l : Link, (Slave.setMode env.toEnv l .stopped).1.mode = .stopped ∧
      (Slave.setMode env.toEnv l .stopped).1.modeN = l.modeN + 1 ∧ (Slave.setMode env.toEnv l .stopped).1.startup = l.startup ∧
      (Slave.setMode env.toEnv l .stopped).1.hwRate = l.hwRate ∧ (Slave.setMode env.toEnv l .stopped).1.cur = l.cur := by
    intro l
    unfold Slave.setMode Slave.drvMode
    simp only [reduceCtorEq, if_false, and_false]
    split <;> exact ⟨rfl, rfl, rfl, rfl, rfl⟩
  have hO : ∀ l : Link, (Slave.setMode env.toEnv l .operational).1.mode = .operational ∧
      (Slave.setMode env.toEnv l .operational).1.modeN = l.modeN + 1 ∧
      (Slave.setMode env.toEnv l .operational).1.hwRate = l.hwRate ∧ (Slave.setMode env.toEnv l .operational).1.cur = l.cur ∧
      (Slave.setMode env.toEnv l .operational).2 = (if env.modeOk l.modeN then E.ok else E.notImplemented) ∧
      (env.modeOk l.modeN → (Slave.setMode env.toEnv l .operational).1.drv = .start) := by
    intro l
    unfold Slave.setMode Slave.drvMode
    simp only [if_true]
    split
    · exact ⟨rfl, rfl, rfl, rfl, rfl, fun _ => rfl⟩
    · next h => exact ⟨rfl, rfl, rfl, rfl, rfl, fun e => absurd e h⟩
  have hB : ∀ l : Link, l.mode = .stopped → ∀ b, (Slave.setBaud l b).2 = E.ok ∧ (Slave.setBaud l b).1.modeN = l.modeN ∧
      (Slave.setBaud l b).1.hwRate = (if b ∈ rates then b else l.hwRate) ∧
      (Slave.setBaud l b).1.cur = (if b ∈ rates then b else l.cur) := by
    intro l hl b
    by_cases hb : b ∈ rates
    · rw [Slave.setBaud_supported _ _ hb, if_pos (.inr hl), if_pos hb, if_pos hb]
      exact ⟨rfl, rfl, rfl, rfl⟩
    · rw [Slave.setBaud_unsupported _ _ hb, if_neg hb, if_neg hb]
      exact ⟨rfl, rfl, rfl, rfl⟩
  unfold startN
  dsimp only
  obtain ⟨a1, a2, a3, a4, a5⟩ := hS s.slv.link
  have e1 : (s.nodeMode env .stopped).1.slv.link = (Slave.setMode env.toEnv s.slv.link .stopped).1 := rfl
  have e1' : (s.nodeMode env .stopped).1.lcsa = s.lcsa := rfl
  generalize (s.nodeMode env .stopped).1 = t1 at e1 e1' ⊢
  rw [← e1] at a1 a2 a3 a4 a5
  obtain ⟨b1, b2, b3, b4⟩ := hB t1.slv.link a1 t1.slv.link.startup
  have e2 : (t1.baudRate env t1.slv.link.startup).1.slv.link = (Slave.setBaud t1.slv.link t1.slv.link.startup).1 := by
    unfold baudRate; dsimp only; rw [setSlv_slv]
  have e2' : (t1.baudRate env t1.slv.link.startup).1.lcsa = t1.lcsa := rfl
  have e2'' : (t1.baudRate env t1.slv.link.startup).2 = E.ok := b1
  generalize t1.baudRate env t1.slv.link.startup = r at e2 e2' e2'' ⊢
  rw [if_pos e2'']
  rw [← e2] at b2 b3 b4
  obtain ⟨c1, c2, c3, c4, c5, c6⟩ := hO r.1.slv.link
  have e3 : (r.1.nodeMode env .operational).1.slv.link = (Slave.setMode env.toEnv r.1.slv.link .operational).1 := rfl
  have e3' : (r.1.nodeMode env .operational).1.lcsa = r.1.lcsa := rfl
  have e3'' : (r.1.nodeMode env .operational).2 = (Slave.setMode env.toEnv r.1.slv.link .operational).2 := rfl
  generalize r.1.nodeMode env .operational = q at e3 e3' e3'' ⊢
  rw [← e3] at c1 c2 c3 c4 c6
  rw [← e3''] at c5
  rw [b2, a2] at c5 c6 c2
  rw [b3, a3, a4] at c3
  rw [b4, a3, a5] at c4
  by_cases hm : env.modeOk (s.slv.link.modeN + 1) = true
  · rw [if_pos hm] at c5
    rw [if_pos c5, if_pos c5]
    have k := (startAck_keep env { q.1 with lcsa := .running }).2
    refine ⟨(if_pos hm).symm, ?_, ?_, fun _ => ⟨?_, rfl⟩, ?_, ?_, fun e => absurd hm e⟩
    · show (startAck env { q.1 with lcsa := .running }).slv.link.mode = _
      rw [k]; exact c1
    · show (startAck env { q.1 with lcsa := .running }).slv.link.modeN = _
      rw [k]; exact c2
    · show (startAck env { q.1 with lcsa := .running }).slv.link.drv = _
      rw [k]; exact c6 hm
    · show (startAck env { q.1 with lcsa := .running }).slv.link.hwRate = _
      rw [k]; exact c3
    · show (startAck env { q.1 with lcsa := .running }).slv.link.cur = _
      rw [k]; exact c4
  · rw [if_neg hm] at c5
    have n : ¬ q.2 = E.ok := by rw [c5]; decide
    rw [if_neg n, if_neg n]
    exact ⟨c5.trans (if_neg hm).symm, c1, c2, fun e => absurd e hm, c3, c4, fun _ => (e3'.trans e2').trans e1'⟩

/-- **C128.**  `lcsa_start` without search: it succeeds exactly if the driver follows the second mode call; then the
node is in operation at once, with the configured bit rate, and the state is RUNNING.  A configured rate that does not
exist is not noticed: the start succeeds and the controller keeps the rate it had.  If the driver refuses, the
state of the stack is left as it was, but the mode of the node is OPERATIONAL. -/
theorem C128_start (env : AEnv) (s : Stack) :
    ((s.startN env).2 = E.ok ↔ env.modeOk (s.slv.link.modeN + 1) = true) ∧
    ((s.startN env).2 = E.ok → InOperation (s.startN env).1 ∧ (s.startN env).1.lcsa = .running) ∧
    ((s.startN env).2 ≠ E.ok → (s.startN env).1.slv.link.mode = .operational ∧ (s.startN env).1.lcsa = s.lcsa) ∧
    (s.startN env).1.slv.link.hwRate = (if s.slv.link.startup ∈ rates then s.slv.link.startup else s.slv.link.hwRate) ∧
    (s.startN env).1.slv.link.cur = (if s.slv.link.startup ∈ rates then s.slv.link.startup else s.slv.link.cur) := by
  obtain ⟨a, b, -, c, d, e, f⟩ := startN_link env s
  have key : (s.startN env).2 = E.ok ↔ env.modeOk (s.slv.link.modeN + 1) = true := by
    rw [a]
    split
    · next h => exact ⟨fun _ => h, fun _ => rfl⟩
    · next h => exact ⟨fun e => absurd e (by decide), fun e => absurd e h⟩
  exact ⟨key, fun h => ⟨⟨b, (c (key.1 h)).1⟩, (c (key.1 h)).2⟩, fun h => ⟨b, f fun e => h (key.2 e)⟩, d, e⟩

theorem processN_link (env : AEnv) (s : Stack) (now : Nat) (bus : BusState) (lec : Lec) :
    (s.processN env now bus lec).slv.link = s.slv.link := by
  unfold processN
  dsimp only
  rw [(Keep.processTx env _ now).2]
  obtain ⟨p, e⟩ := Slave.trigger_eq env.toEnv s.slv now
  show (s.slv.trigger env.toEnv now).link = _
  rw [e]

/-- **C128.**  A node in operation stays in operation, whatever the bus does and whoever calls what, as long as the
application does not set the mode itself. -/
theorem C128_stays_in_operation (hm : ∀ k, env.modeOk k = true) (is : List SIn) : ∀ s : Stack, s.rc.state = .off →
    InOperation s → (∀ i ∈ is, noMode i = true) → ∀ s', s.runN env is = some s' → InOperation s' := by
  induction is with
  | nil => intro s _ h _ s' e; rw [← Option.some.inj e]; exact h
  | cons i is ih =>
    intro s hr h hi s' e
    simp only [runN, Option.bind_eq_some_iff] at e
    obtain ⟨t, ht, e⟩ := e
    refine ih t (stepN_off hr ht) ?_ (fun j hj => hi j (List.mem_cons_of_mem _ hj)) s' e
    have hn := hi i (List.mem_cons_self ..)
    by_cases h1 : ∃ now bus lec, i = .process now bus lec
    · obtain ⟨now, bus, lec, rfl⟩ := h1
      injection ht with ht
      subst ht
      unfold InOperation
      rw [processN_link]
      exact h
    by_cases h2 : ∃ now, i = .start now
    · obtain ⟨now, rfl⟩ := h2
      injection ht with ht
      subst ht
      exact ((C128_start env s).2.1 ((C128_start env s).1.2 (hm _))).1
    by_cases h3 : ∃ k f, i = .rcCb k f
    · obtain ⟨k, f, rfl⟩ := h3
      injection ht with ht
      subst ht; exact h
    have hst : s.step env i = some t := by
      cases i with
      | process now bus lec => exact absurd ⟨now, bus, lec, rfl⟩ h1
      | start now => exact absurd ⟨now, rfl⟩ h2
      | rcCb k f => exact absurd ⟨k, f, rfl⟩ h3
      | rx now obj dlc id ext data => exact (rx_off hr ..).trans ht
      | _ => exact ht
    have := other_link hst (fun now bus lec e => h1 ⟨now, bus, lec, e⟩) (fun now e => h2 ⟨now, e⟩) hn
    obtain ⟨g1, g2⟩ := h
    unfold InOperation
    generalize s.slv.link = l at *
    generalize t.slv.link = l' at *
    cases this with
    | same => exact ⟨g1, g2⟩
    | startup _ b => exact ⟨g1, g2⟩
    | baud b => rw [(setBaud_keeps l b).1, (setBaud_keeps l b).2]; exact ⟨g1, g2⟩
    | change _ b => rw [(changeBaud_mode hm l b).1, (changeBaud_mode hm l b).2, if_pos g1]; exact ⟨g1, rfl⟩

/-- **C128.**  Only a frame, `lcsa_start` or a mode set by the application makes the stack tell the controller
anything about its mode.  A controller that went bus off receives nothing, so nothing but the application restarts it:
neither `lcsa_process` nor setting the state or the rate does. -/
theorem C128_bus_off_stays (is : List SIn) : ∀ s : Stack,
    (∀ i ∈ is, noMode i = true ∧ isRx i = false ∧ ∀ now, i ≠ .start now) → ∀ s', s.runN env is = some s' →
    s'.slv.link.modeN = s.slv.link.modeN ∧ s'.slv.link.drv = s.slv.link.drv ∧ s'.slv.link.mode = s.slv.link.mode ∧
    (s.slv.link.mode = .operational → s'.slv.link.hwRate = s.slv.link.hwRate) := by
  induction is with
  | nil => intro s _ s' e; rw [← Option.some.inj e]; exact ⟨rfl, rfl, rfl, fun _ => rfl⟩
  | cons i is ih =>
    intro s hi s' e
    simp only [runN, Option.bind_eq_some_iff] at e
    obtain ⟨t, ht, e⟩ := e
    obtain ⟨hn, hx, hst⟩ := hi i (List.mem_cons_self ..)
    have := ih t (fun j hj => hi j (List.mem_cons_of_mem _ hj)) s' e
    have key : t.slv.link.modeN = s.slv.link.modeN ∧ t.slv.link.drv = s.slv.link.drv ∧ t.slv.link.mode = s.slv.link.mode ∧
        (s.slv.link.mode = .operational → t.slv.link.hwRate = s.slv.link.hwRate) := by
      by_cases h1 : ∃ now bus lec, i = .process now bus lec
      · obtain ⟨now, bus, lec, rfl⟩ := h1
        injection ht with ht
        subst ht
        rw [processN_link]
        exact ⟨rfl, rfl, rfl, fun _ => rfl⟩
      by_cases h3 : ∃ k f, i = .rcCb k f
      · obtain ⟨k, f, rfl⟩ := h3
        injection ht with ht
        subst ht; exact ⟨rfl, rfl, rfl, fun _ => rfl⟩
      have hst' : s.step env i = some t := by
        cases i with
        | process now bus lec => exact absurd ⟨now, bus, lec, rfl⟩ h1
        | start now => exact absurd rfl (hst now)
        | rcCb k f => exact absurd ⟨k, f, rfl⟩ h3
        | rx now obj dlc id ext data => cases hx
        | _ => exact ht
      have := other_link hst' (fun now bus lec e => h1 ⟨now, bus, lec, e⟩) hst hn
      generalize s.slv.link = l at *
      generalize t.slv.link = l' at *
      cases this with
      | same => exact ⟨rfl, rfl, rfl, fun _ => rfl⟩
      | startup _ b => exact ⟨rfl, rfl, rfl, fun _ => rfl⟩
      | baud b =>
        by_cases hb : b ∈ rates
        · rw [Slave.setBaud_supported _ _ hb]
          split
          · next h => exact ⟨rfl, rfl, rfl, fun e => by rw [e] at h; rcases h with h | h <;> cases h⟩
          · exact ⟨rfl, rfl, rfl, fun _ => rfl⟩
        · rw [Slave.setBaud_unsupported _ _ hb]
          exact ⟨rfl, rfl, rfl, fun _ => rfl⟩
      | change _ b h => rw [hx] at h; cases h
    exact ⟨this.1.trans key.1, this.2.1.trans key.2.1, this.2.2.1.trans key.2.2.1,
      fun h => (this.2.2.2 (key.2.2.1.trans h)).trans (key.2.2.2 h)⟩

/-- **C128.**  What holds in every reachable state of the stack with search holds in every reachable state of the
stack without it. -/
theorem C128_carried_over (P : Stack → Prop) (s : Stack) (hr : s.rc.state = .off) (hP : ∀ is s', s.run env is = some s' → P s')
    (is : List SIn) (s' : Stack) (h : s.runN env is = some s') : P s' := by
  rw [(C128_same_as_calls is s hr).1] at h
  exact hP _ _ h

/-- the device of the other examples without search -/
def exNo : AEnv := { exA with recon := false }

/-- initialized, one module, started, then an error on the bus and a process request -/
def exNoLife : List SIn := exSetup ++ [.start 10, .process 20 .busOff .ack, .process 30 .active .none]

/-- C128: the hypotheses are met; the node is in operation at once and is not stopped by the error, while the stack
with search starts to search. -/
example : (boot exMem exInfo).rc.state = .off ∧ (∀ k, exNo.modeOk k = true) ∧ (∀ i ∈ exNoLife, noMode i = true) ∧
    ((runN exNo (boot exMem exInfo) (exSetup ++ [.start 10])).map fun s => decide (InOperation s ∧ s.lcsa = .running ∧ s.slv.link.hwRate = 250)) = some true ∧
    ((runN exNo (boot exMem exInfo) exNoLife).map fun s => decide (InOperation s)) = some true ∧
    ((run exA (boot exMem exInfo) exNoLife).map fun s => decide (InOperation s)) = some false := by
  refine ⟨rfl, fun _ => rfl, by decide +kernel, by decide +kernel, by decide +kernel, by decide +kernel⟩

/-- C128: the start of that history consists of four calls; the four registrations of callbacks of the search are gone -/
example : (callsOf exNo (boot exMem exInfo) exNoLife).length = exSetup.length - 4 + 6 ∧
    (match (callsOf exNo (boot exMem exInfo) exNoLife).drop (exSetup.length - 4) with
     | [.api (.setMode m), .setBaud b, .api (.setMode m'), .setState l, .process 20 .active .none, .process 30 .active .none] =>
       decide (m = .stopped ∧ b = 250 ∧ m' = .operational ∧ l = .running)
     | _ => false) = true := by
  decide +kernel

/-- C128: a driver that refuses the second call -/
example : ((runN { exNo with modeOk := fun k => k != 1 } (boot exMem exInfo) exSetup).map fun s =>
    let r := s.startN { exNo with modeOk := fun k => k != 1 }
    decide (r.2 ≠ E.ok ∧ ¬ InOperation r.1 ∧ r.1.lcsa ≠ .running)) = some true := by
  decide +kernel

/-- C128: a start rate of 300 kBit does not exist; the start succeeds, and the controller was never given a rate -/
theorem C128_counterexample_rate : ∃ s, runN exNo (boot exMem exInfo) [.init 300, .start 10] = some s ∧ InOperation s ∧
    s.lcsa = .running ∧ s.slv.link.hwRate = 0 := by
  have h : ((runN exNo (boot exMem exInfo) [.init 300, .start 10]).map fun s => decide (InOperation s ∧
    s.lcsa = .running ∧ s.slv.link.hwRate = 0)) = some true := by decide +kernel
  obtain ⟨s, a, b⟩ := Option.map_eq_some_iff.1 h
  exact ⟨s, a, of_decide_eq_true b⟩

end LiCan.Stack
