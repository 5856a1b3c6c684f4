import Verif.Props.State
import Verif.Props.Baud
import Verif.Spec.Operation
/-! # In operation or searching, and the bit rate reported -/
namespace LiCan
namespace Slave

theorem checkModule_link (s : Slave) (now tp : Nat) : (checkModule s now tp).1.link = s.link := by
  unfold checkModule; split <;> rfl

theorem checkStep_link (now : Nat) (r : Slave × Bool) (i : Nat) : (checkStep now r i).1.link = r.1.link := by
  unfold checkStep
  have h := checkModule_link r.1 now i
  generalize checkModule r.1 now i = q at h ⊢
  dsimp only
  split <;> simp only [callOpt_link, h]

theorem checkImage_link (env : Env) (s : Slave) (now : Nat) : (checkImage env s now).link = s.link := by
  have hf : ∀ (l : List Nat) (r : Slave × Bool), (l.foldl (checkStep now) r).1.link = r.1.link := by
    intro l
    induction l with
    | nil => exact fun r => rfl
    | cons i l ih => intro r; rw [List.foldl_cons, ih, checkStep_link]
  unfold checkImage
  split
  · split
    · rfl
    split
    · rfl
    · have h := hf (List.range s.node.nrMod) (s, true)
      generalize (List.range s.node.nrMod).foldl (checkStep now) (s, true) = r at h ⊢
      dsimp only
      split
      · show (Slave.callOpt _ _).link = _
        rw [callOpt_link]; exact h
      · exact h
  · rfl

/-- the link after a frame: as before, or after a baud rate message -/
theorem handlerRx_link {env : Env} {s s' : Slave} {now obj dlc id : Nat} {data : List Byte}
    (h : handlerRx env s now obj dlc id data = some s') :
    s'.link = s.link ∨ ∃ b, s'.link = (changeBaud env s.link b).1 := by
  by_cases ho : obj = 0
  · subst ho
    obtain ⟨s1, r, hp⟩ := frame_request (show step env s (.frame now 0 dlc id data) = some s' from h)
    obtain ⟨-, h2, -⟩ := processRequest_spec hp
    rw [h2, checkImage_link, reqRx_eq]
    exact .inl r.link
  · rcases frame_other ho (show step env s (.frame now obj dlc id data) = some s' from h) with r | ⟨s1, s2, e, r, hm, rfl⟩
    · exact .inl r.link
    · show s2.link = _ ∨ ∃ b, s2.link = _
      rw [← r.link]
      cases sysMsg_eff hm with
      | baud h => exact .inr ⟨_, rfl⟩
      | cycle h => rw [setCycle_eq]; exact .inl rfl
      | _ => exact .inl rfl

end Slave
namespace Stack
open Spec
open Node (exMem)

variable {env : AEnv}

/-- what an input other than a processing or a start does to the link -/
inductive LinkStep (env : AEnv) (l : Link) : SIn → Link → Prop
  | same (i : SIn) : LinkStep env l i l
  | startup (i : SIn) (b : Nat) : LinkStep env l i { l with startup := b }
  | baud (b : Nat) : LinkStep env l (.setBaud b) (Slave.setBaud l b).1
  | change (i : SIn) (b : Nat) (h : isRx i = true) : LinkStep env l i (Slave.changeBaud env.toEnv l b).1

theorem other_link {s s' : Stack} {i : SIn} (h : s.step env i = some s') (h1 : ∀ now bus lec, i ≠ .process now bus lec)
    (h2 : ∀ now, i ≠ .start now) (h3 : noMode i = true) : LinkStep env s.slv.link i s'.slv.link := by
  have ret : ∀ {t : Stack}, some t = some s' → Keep s t → LinkStep env s.slv.link i s'.slv.link := by
    intro t e k
    rw [← Option.some.inj e, k.2]
    exact .same i
  cases i with
  | rx now obj dlc id ext data =>
    simp only [Stack.step, Stack.rx] at h
    split at h
    · injection h with h
      subst h
      exact .same _
    split at h
    · injection h with h
      subst h
      exact .same _
    simp only [Option.map_eq_some_iff] at h
    obtain ⟨v, hv, h⟩ := h
    subst h
    obtain ⟨-, a⟩ := ((Keep.processTx env (Stack.setSlv env (s.setR fun c => { c with pending := .msg }) v) now).trans
      (Keep.ctrlRx env _ obj id data)).trans (Keep.dataRx env _ obj dlc data)
    rw [a, setSlv_slv]
    rcases Slave.handlerRx_link hv with e | ⟨b, e⟩
    · rw [e]; exact .same _
    · rw [e]; exact .change _ b rfl
  | process now bus lec => exact absurd rfl (h1 now bus lec)
  | start now => exact absurd rfl (h2 now)
  | init baud =>
    injection h with h
    subst h
    obtain ⟨a, u, b⟩ := init_same env s baud
    rw [b]; exact .startup _ u
  | setState l => exact ret h ⟨rfl, rfl⟩
  | setBaud b =>
    injection h with h
    subst h
    exact .baud b
  | api i =>
    simp only [Stack.step] at h
    split at h
    · next hi =>
      simp only [Option.map_eq_some_iff] at h
      obtain ⟨v, hv, h⟩ := h
      subst h
      have := api_same hi (fun m e => by subst e; cases h3) hv
      show LinkStep env s.slv.link _ v.link
      rw [this]; exact .same _
    · exact ret h (.refl s)
  | hnd k f => exact ret h (by unfold Stack.setHnd; split <;> exact ⟨rfl, rfl⟩)
  | dlStart c => exact ret h (Quiet.dlStart env s c).keep
  | act a => exact ret h (Quiet.act env s a).keep
  | ulData fuel data =>
    rw [(Quiet.ulData env fuel s s' data h).keep.2]; exact .same _
  | putc x => exact ret h (.putc env s x)
  | retry =>
    refine ret h ?_
    split
    · exact .refl s
    · exact .retry env s
  | xonOff code =>
    refine ret h ?_
    unfold Stack.xonOff
    split
    · exact .refl s
    · exact .tx env s _ _
  | shutdown =>
    refine ret h ?_
    unfold Stack.tnlShutdown
    split
    · exact .refl s
    · exact ⟨rfl, rfl⟩
  | enqueue nr dlc src => exact ret h (.enqueue env s nr dlc src)
  | info o => exact ret h ⟨rfl, rfl⟩
  | rcCb k f =>
    injection h with h
    subst h
    have : (s.setRcCb k f).slv = s.slv := by cases k <;> (unfold setRcCb; dsimp only; split <;> rfl)
    rw [this]; exact .same _

theorem setBaud_keeps (l : Link) (b : Nat) : (Slave.setBaud l b).1.mode = l.mode ∧ (Slave.setBaud l b).1.drv = l.drv :=
  (Slave.C30_rates_partial l b).2.2.2

/-- mode and driver after a baud rate message, with a driver that does as it is told -/
theorem changeBaud_mode (hm : ∀ k, env.modeOk k = true) (l : Link) (b : Nat) :
    (Slave.changeBaud env.toEnv l b).1.mode = l.mode ∧
    (Slave.changeBaud env.toEnv l b).1.drv = if l.mode = .operational then .start else if env.recon = true ∧ l.mode = .listen then .listen else .stop := by
  unfold Slave.changeBaud
  dsimp only
  rw [if_pos (Slave.setMode_ok hm l .stopped).1]
  have h2 : (Slave.setBaud (Slave.setMode env.toEnv l .stopped).1 b).2 = E.ok := by
    have := Slave.setMode_mode env.toEnv l .stopped
    by_cases hb : b ∈ rates
    · rw [Slave.setBaud_supported _ b hb, if_pos (.inr this.1)]
    · rw [Slave.setBaud_unsupported _ b hb]
  rw [if_pos h2]
  exact ⟨(Slave.setMode_mode _ _ _).1, (Slave.setMode_ok hm _ _).2⟩

/-! ## C109 -/

/-- after a turn of the search the node searches on or is in operation -/
theorem turn_operates {s s' : Stack} {now : Nat} {intid : Pending} {lec : Lec} (hm : ∀ k, env.modeOk k = true)
    (t : Turn env now intid lec s s') (hs : Searching s) : Searching s' ∨ InOperation s' := by
  cases t with
  | ended c w e =>
    obtain ⟨-, e2, -, -, -, e6⟩ := rcOff_spec env (s.setR fun _ => c) now
    rw [← e] at e2 e6
    exact .inr ⟨e2, (e6 hm).2⟩
  | switched st c b k hst hrc hm hl hw hss hn hlc hlog =>
    left
    unfold Searching
    rw [hrc]
    rcases hst with ⟨-, ⟨e, -⟩ | ⟨e, -⟩⟩ | ⟨-, e, -⟩ <;> rw [e]
    · exact .inl rfl
    · exact .inr (.inl rfl)
    · exact .inr (.inr rfl)
  | same st b k hst hk e =>
    subst e
    left
    show st = .startup ∨ st = .on ∨ st = .idle
    rcases hst with e | ⟨-, e⟩
    · rw [← e]; exact hs
    · exact .inr (.inl e)

/-- an error on the bus of a node that is not stopped starts a search -/
theorem error_starts {s : Stack} (ho : s.rc.state = .off) (hn : s.lcsa ≠ .stopped) (now : Nat) (bus : BusState) (lec : Lec)
    (he : bus ≠ .active ∨ lec ≠ .none) :
    ((s.hwBusOff env now bus lec).hwPassive env now bus).rc.state = .on ∧
    ((s.hwBusOff env now bus lec).hwPassive env now bus).rc.process = true := by
  have start : ∀ (t : Stack) (c : RCause), t.rc.state = .off → t.lcsa ≠ .stopped →
      (t.rcError env now c).rc.state = .on ∧ (t.rcError env now c).rc.process = true := by
    intro t c h1 h2
    have := rcError_spec env t now c
    rw [if_pos ⟨h1, h2⟩] at this
    rw [this.1]
    exact ⟨rfl, rfl⟩
  have pass : ∀ t : Stack, t.rc.state = .on ∧ t.rc.process = true → (t.hwPassive env now bus).rc.state = .on ∧ (t.hwPassive env now bus).rc.process = true := by
    intro t h
    unfold Stack.hwPassive
    split
    · have := rcError_spec env ({ t with slv := { t.slv with link := (Slave.drvMode env.toEnv t.slv.link .listen).1 } } : Stack) now .ewrn
      rw [if_neg (fun e => by have e := e.1; rw [show ({ t with slv := _ } : Stack).rc = t.rc from rfl, h.1] at e; cases e)] at this
      rw [this]
      exact h
    · exact h
  by_cases hb : bus = .busOff ∨ lec ≠ .none
  · refine pass _ ?_
    unfold Stack.hwBusOff
    rw [if_pos hb]
    exact start _ _ ho hn
  · have hp : bus = .passive := by
      cases bus with
      | active => exact absurd (he.resolve_left (fun h => h rfl)) (fun h => hb (.inr h))
      | passive => rfl
      | busOff => exact absurd (.inl rfl) hb
    have : s.hwBusOff env now bus lec = s := by unfold Stack.hwBusOff; rw [if_neg hb]
    rw [this]
    unfold Stack.hwPassive
    rw [if_pos hp]
    exact start _ _ ho hn

theorem process_operates {s : Stack} (hm : ∀ k, env.modeOk k = true) (h : Srch s) (hn : s.lcsa ≠ .stopped)
    (ho : InOperation s ∨ Searching s) (now : Nat) (bus : BusState) (lec : Lec) :
    InOperation (s.process env now bus lec) ∨ Searching (s.process env now bus lec) := by
  obtain ⟨p, hp⟩ := Slave.trigger_eq env.toEnv s.slv now
  have hk : Keep s { s with slv := { s.slv with sync := { s.slv.sync with periode := p } } } := ⟨rfl, rfl⟩
  have hl : ({ s with slv := { s.slv with sync := { s.slv.sync with periode := p } } } : Stack).lcsa = s.lcsa := rfl
  unfold Stack.process
  rw [hp]
  dsimp only
  generalize ({ s with slv := { s.slv with sync := { s.slv.sync with periode := p } } } : Stack) = t at hk hl ⊢
  have hkeep : ∀ {a b : Stack}, Keep a b → InOperation a ∨ Searching a → InOperation b ∨ Searching b := by
    intro a b k
    unfold InOperation Searching
    rw [k.1, k.2]; exact id
  refine hkeep (Keep.processTx env _ now) ?_
  have ht := h.rc hk.1
  have hto := hkeep hk ho
  have htn : t.lcsa ≠ .stopped := by rw [hl]; exact hn
  unfold Stack.hwError
  dsimp only
  rcases ht.proc with hoff | ⟨hs, hpr⟩
  · by_cases hc : (bus ≠ .active ∨ lec ≠ .none) ∧ t.rc.state = .off
    · rw [if_pos hc]
      have hq := error_starts (env := env) hoff htn now bus lec hc.1
      generalize (t.hwBusOff env now bus lec).hwPassive env now bus = y at hq ⊢
      have hys : Searching y := .inr (.inl hq.1)
      rw [if_pos (by rw [hq.1]; decide)]
      exact (turn_operates hm (rcProcess_turn env y now y.rc.pending lec hys hq.2) hys).symm
    · rw [if_neg hc, if_neg (fun e => e hoff)]
      exact hto
  · have hno : ¬ t.rc.state = .off := fun e => not_searching e hs
    rw [if_neg (c := (bus ≠ .active ∨ lec ≠ .none) ∧ t.rc.state = .off) (fun e => hno e.2), if_pos hno]
    exact (turn_operates hm (rcProcess_turn env t now t.rc.pending lec hs hpr) hs).symm

theorem process_notStopped {s : Stack} (h : Srch s) (hn : s.lcsa ≠ .stopped) (now : Nat) (bus : BusState) (lec : Lec) :
    (s.process env now bus lec).lcsa ≠ .stopped := by
  cases (process_did (env := env) h now bus lec).1 with
  | goes hp hn' hl =>
    rcases hl with hl | ⟨-, hl⟩
    · rw [hl]; exact hn
    · rw [hl]; decide
  | begins h0 hp hn' hl => rw [hl]; decide
  | ends k b h0 hp hn' hl => rw [hl]; cases k <;> decide
  | refused k h0 hp hr hn' hl => rw [hl]; exact hn

/-- the invariant of **C109** -/
structure OpInv (s : Stack) : Prop where
  srch : Srch s
  lcsa : s.lcsa ≠ .stopped
  op : InOperation s ∨ Searching s

theorem OpInv.start (hm : ∀ k, env.modeOk k = true) (s : Stack) (now : Nat) : OpInv (s.start env now).1 := by
  obtain ⟨-, h2, h3, h4, h5⟩ := start_did env s now
  refine ⟨h2, by rw [h4 (h3 hm)]; decide, ?_⟩
  by_cases hd : s.lcsa = .download
  · left
    unfold Stack.start
    rw [if_pos hd]
    dsimp only
    generalize (Stack.setR _ _ : Stack) = t
    have hk : ∀ r : Stack × Err, InOperation r.1 → InOperation (if r.2 = E.ok then ({ r.1.startAck env with lcsa := .running }, E.ok) else r).1 := by
      intro r h
      split
      · have := (startAck_keep env r.1).2
        unfold InOperation at h ⊢
        show (r.1.startAck env).slv.link.mode = _ ∧ (r.1.startAck env).slv.link.drv = _
        rw [this]; exact h
      · exact h
    refine hk _ ?_
    have hop : InOperation (t.nodeMode env .operational).1 :=
      ⟨(Slave.setMode_mode env.toEnv t.slv.link .operational).1, (Slave.setMode_ok hm t.slv.link .operational).2⟩
    split
    · exact hop
    · exact hop
  · rw [if_neg hd] at h5
    exact .inr ((phase_iff _).1 (by rw [h5.1]; rfl))

theorem OpInv.step {s s' : Stack} {i : SIn} (hm : ∀ k, env.modeOk k = true) (h : OpInv s) (hi : noStop i = true)
    (hs : s.step env i = some s') : OpInv s' := by
  refine ⟨h.srch.step hs, ?_, ?_⟩
  · by_cases h1 : ∃ now bus lec, i = .process now bus lec
    · obtain ⟨now, bus, lec, rfl⟩ := h1
      injection hs with hs
      rw [← hs]; exact process_notStopped h.srch h.lcsa now bus lec
    by_cases h2 : ∃ now, i = .start now
    · obtain ⟨now, rfl⟩ := h2
      injection hs with hs
      rw [← hs]; exact (OpInv.start hm s now).lcsa
    by_cases h3 : ∃ l, i = .setState l
    · obtain ⟨l, rfl⟩ := h3
      injection hs with hs
      rw [← hs]
      intro e
      have e : l = .stopped := e
      subst e; cases hi
    by_cases h4 : ∃ b, i = .init b
    · obtain ⟨b, rfl⟩ := h4
      injection hs with hs
      rw [← hs]
      rcases init_lcsa env s b with e | e
      · rw [e]; decide
      · rw [e]; exact h.lcsa
    rw [(other_calm hs (fun now bus lec e => h1 ⟨now, bus, lec, e⟩) (fun now e => h2 ⟨now, e⟩) (fun l e => h3 ⟨l, e⟩)
      (fun b e => h4 ⟨b, e⟩)).1]
    exact h.lcsa
  · by_cases h1 : ∃ now bus lec, i = .process now bus lec
    · obtain ⟨now, bus, lec, rfl⟩ := h1
      injection hs with hs
      rw [← hs]; exact process_operates hm h.srch h.lcsa h.op now bus lec
    by_cases h2 : ∃ now, i = .start now
    · obtain ⟨now, rfl⟩ := h2
      injection hs with hs
      rw [← hs]; exact (OpInv.start hm s now).op
    have h3 : noMode i = true := by
      cases i with
      | api j => cases j <;> first | rfl | cases hi
      | _ => rfl
    have h1' := fun now bus lec e => h1 ⟨now, bus, lec, e⟩
    have h2' := fun now e => h2 ⟨now, e⟩
    rcases h.op with ⟨o1, o2⟩ | hse
    · left
      have hl := other_link hs h1' h2' h3
      unfold InOperation
      generalize s.slv.link = l at hl o1 o2
      generalize s'.slv.link = l' at hl ⊢
      cases hl with
      | same => exact ⟨o1, o2⟩
      | startup _ b => exact ⟨o1, o2⟩
      | baud b => rw [(setBaud_keeps l b).1, (setBaud_keeps l b).2]; exact ⟨o1, o2⟩
      | change _ b =>
        obtain ⟨c1, c2⟩ := changeBaud_mode hm l b
        rw [c1, c2, if_pos o1]; exact ⟨o1, rfl⟩
    · right
      obtain ⟨⟨p, a, b, c, d, -, e⟩, -⟩ := other_same hs h1' h2' h3
      unfold Searching
      rw [e]; exact hse

/-- **C109.**  From `lcsa_start` on, with a driver that does as it is told, the node is at every moment in operation - mode
OPERATIONAL, controller started - or a search for the bit rate is running, whatever frames are received, whatever
bus states and errors the driver reports and whatever the application calls, unless it sets the state STOPPED or the
node mode itself.

`_partial`: with the state STOPPED the node may fall silent without a search, see `C109_stopped_error`. -/
theorem C109_operates_or_searches_partial (hm : ∀ k, env.modeOk k = true) (s0 : Stack) (now : Nat) (is : List SIn) (s : Stack)
    (hi : ∀ i ∈ is, noStop i = true) (hr : (s0.start env now).1.run env is = some s) : InOperation s ∨ Searching s := by
  suffices g : ∀ (is : List SIn) (t : Stack), OpInv t → (∀ i ∈ is, noStop i = true) → t.run env is = some s → OpInv s from
    (g is _ (OpInv.start hm s0 now) hi hr).op
  intro is
  induction is with
  | nil => intro t h _ hr; injection hr with hr; rw [← hr]; exact h
  | cons i is ih =>
    intro t h hi hr
    simp only [Stack.run, Option.bind_eq_some_iff] at hr
    obtain ⟨t1, ht, hr⟩ := hr
    exact ih t1 (h.step hm (hi i (List.mem_cons_self ..)) ht) (fun j hj => hi j (List.mem_cons_of_mem _ hj)) hr

/-- **C109**, what is missing: with the state STOPPED a bus off or an error makes a node in operation listen only, and no
search begins. -/
theorem C109_stopped_error (s : Stack) (ho : s.rc.state = .off) (hl : s.lcsa = .stopped) (now : Nat) (bus : BusState) (lec : Lec)
    (he : bus = .busOff ∨ lec ≠ .none) : Deaf (s.process env now bus lec) ∧ (s.process env now bus lec).lcsa = .stopped := by
  obtain ⟨p, hp⟩ := Slave.trigger_eq env.toEnv s.slv now
  unfold Stack.process
  rw [hp]
  dsimp only
  have ho' : ({ s with slv := { s.slv with sync := { s.slv.sync with periode := p } } } : Stack).rc.state = .off := ho
  have hl' : ({ s with slv := { s.slv with sync := { s.slv.sync with periode := p } } } : Stack).lcsa = .stopped := hl
  generalize ({ s with slv := { s.slv with sync := { s.slv.sync with periode := p } } } : Stack) = t at ho' hl' ⊢
  have he' : bus ≠ .active ∨ lec ≠ .none := by
    rcases he with e | e
    · rw [e]; exact .inl (by decide)
    · exact .inr e
  have still : ∀ (u : Stack) (c : RCause), u.lcsa = .stopped → u.rcError env now c = u := by
    intro u c h
    unfold Stack.rcError
    rw [if_neg (fun e => e.2 h)]
  have hb : t.hwBusOff env now bus lec = ((t.nodeMode env .stopped).1.nodeMode env .listen).1 := by
    unfold Stack.hwBusOff
    rw [if_pos he]
    exact still _ _ hl'
  have hy : Deaf ((t.hwBusOff env now bus lec).hwPassive env now bus) ∧ ((t.hwBusOff env now bus lec).hwPassive env now bus).lcsa = .stopped := by
    rw [hb]
    have hmode : (((t.nodeMode env .stopped).1.nodeMode env .listen).1).slv.link.mode = .listen := (Slave.setMode_mode _ _ _).1
    have hst : (((t.nodeMode env .stopped).1.nodeMode env .listen).1).rc.state = .off := ho'
    have hlc : (((t.nodeMode env .stopped).1.nodeMode env .listen).1).lcsa = .stopped := hl'
    generalize ((t.nodeMode env .stopped).1.nodeMode env .listen).1 = u at hmode hst hlc ⊢
    unfold Stack.hwPassive
    split
    · rw [still ({ u with slv := { u.slv with link := (Slave.drvMode env.toEnv u.slv.link .listen).1 } } : Stack) .ewrn hlc]
      refine ⟨⟨?_, hst⟩, hlc⟩
      show (Slave.drvMode env.toEnv u.slv.link .listen).1.mode = _
      unfold Slave.drvMode
      split <;> exact hmode
    · exact ⟨⟨hmode, hst⟩, hlc⟩
  have hw : t.hwError env now bus lec = (t.hwBusOff env now bus lec).hwPassive env now bus := by
    unfold Stack.hwError
    dsimp only
    rw [if_pos (c := (bus ≠ .active ∨ lec ≠ .none) ∧ t.rc.state = .off) ⟨he', ho'⟩, if_neg (fun e => e hy.1.2)]
  rw [hw]
  have hk := Keep.processTx env ((t.hwBusOff env now bus lec).hwPassive env now bus) now
  have hc := (Calm.processTx env ((t.hwBusOff env now bus lec).hwPassive env now bus) now).1
  refine ⟨?_, hc.trans hy.2⟩
  unfold Deaf
  rw [hk.1, hk.2]
  exact hy.1

/-- **C109**: a node that listens without a search stays so, whatever is received and whatever else the application
calls - setting the state back to RUNNING included - until there is another error on the bus or the application starts it
again. -/
theorem C109_stays_silent (hm : ∀ k, env.modeOk k = true) (is : List SIn) : ∀ (s s' : Stack), Deaf s → (∀ i ∈ is, noRescue i = true) →
    s.run env is = some s' → Deaf s' := by
  induction is with
  | nil => intro s s' h _ hr; injection hr with hr; rw [← hr]; exact h
  | cons i is ih =>
    intro s s' h hi hr
    simp only [Stack.run, Option.bind_eq_some_iff] at hr
    obtain ⟨t, ht, hr⟩ := hr
    refine ih t s' ?_ (fun j hj => hi j (List.mem_cons_of_mem _ hj)) hr
    have hi := hi i (List.mem_cons_self ..)
    by_cases h1 : ∃ now bus lec, i = .process now bus lec
    · obtain ⟨now, bus, lec, rfl⟩ := h1
      injection ht with ht
      obtain ⟨e1, e2⟩ := of_decide_eq_true hi
      rw [← ht, e1, e2]
      obtain ⟨p, hp⟩ := Slave.trigger_eq env.toEnv s.slv now
      unfold Stack.process
      rw [hp]
      dsimp only
      have hd : Deaf { s with slv := { s.slv with sync := { s.slv.sync with periode := p } } } := h
      generalize ({ s with slv := { s.slv with sync := { s.slv.sync with periode := p } } } : Stack) = u at hd ⊢
      have hw : u.hwError env now .active .none = u := by
        unfold Stack.hwError
        dsimp only
        rw [if_neg (c := (BusState.active ≠ .active ∨ Lec.none ≠ .none) ∧ u.rc.state = .off)
          (fun e => e.1.elim (fun e => e rfl) (fun e => e rfl)), if_neg (fun e => e hd.2)]
      rw [hw]
      have hk := Keep.processTx env u now
      unfold Deaf
      rw [hk.1, hk.2]; exact hd
    have h2 : ∀ now, i ≠ .start now := fun now e => by subst e; cases hi
    have h3 : noMode i = true := by
      cases i with
      | api j => cases j <;> first | rfl | cases hi
      | _ => rfl
    have h1' := fun now bus lec e => h1 ⟨now, bus, lec, e⟩
    obtain ⟨⟨p, a, b, c, d, -, e⟩, -⟩ := other_same ht h1' h2 h3
    have hl := other_link ht h1' h2 h3
    refine ⟨?_, by rw [e]; exact h.2⟩
    have hmode := h.1
    generalize s.slv.link = l at hl hmode
    generalize t.slv.link = l' at hl ⊢
    cases hl with
    | same => exact hmode
    | startup _ b => exact hmode
    | baud b => rw [(setBaud_keeps l b).1]; exact hmode
    | change _ b => rw [(changeBaud_mode hm l b).1]; exact hmode

/-! ## C110 -/

/-- the rate reported is the one of the controller -/
def RateEq (s : Stack) : Prop := s.slv.link.cur = s.slv.link.hwRate

theorem setBaud_rate {l : Link} (h : l.cur = l.hwRate) (hm : l.mode = .init ∨ l.mode = .stopped) (b : Nat) :
    (Slave.setBaud l b).1.cur = (Slave.setBaud l b).1.hwRate := by
  by_cases hb : b ∈ rates
  · rw [Slave.setBaud_supported l b hb, if_pos hm]
  · rw [Slave.setBaud_unsupported l b hb]; exact h

theorem RateEq.mode {s : Stack} (h : RateEq s) (m : Mode) : RateEq (s.nodeMode env m).1 := by
  obtain ⟨-, b, c, -⟩ := Slave.setMode_mode env.toEnv s.slv.link m
  exact c.trans (Eq.trans h b.symm)

theorem RateEq.stopBaud {s : Stack} (h : RateEq s) (b : Nat) : RateEq ((s.nodeMode env .stopped).1.baudRate env b).1 :=
  setBaud_rate (h.mode .stopped) (.inr (Slave.setMode_mode env.toEnv s.slv.link .stopped).1) b

theorem RateEq.next (s : Stack) (now : Nat) : RateEq (s.nextBaud env now) := by
  obtain ⟨-, -, a, b, -⟩ := nextBaud_spec env s now
  exact b.trans a.symm

theorem RateEq.off {s : Stack} (h : RateEq s) (now : Nat) : RateEq (s.rcOff env now) := by
  obtain ⟨-, -, a, b, -⟩ := rcOff_spec env s now
  unfold RateEq
  rw [a, b]
  split
  · rfl
  · exact h

theorem RateEq.on {s : Stack} (h : RateEq s) (now : Nat) (first : Bool) : RateEq (s.rcOn env now first) := by
  unfold Stack.rcOn
  dsimp only
  have hx : ∀ t : Stack, RateEq t → RateEq (t.setR fun c => { c with process := true }) := fun _ h => h
  refine hx _ ?_
  split
  · exact h
  · exact .next _ now

theorem RateEq.keep {s t : Stack} (k : Keep s t) (h : RateEq s) : RateEq t := by
  unfold RateEq; rw [k.2]; exact h

theorem RateEq.notify {s : Stack} (h : RateEq s) (f : Option Nat) (c : Nat → ACall) : RateEq (s.notify f c) :=
  h.keep (notify_keep s f c)

theorem RateEq.error {s : Stack} (h : RateEq s) (now : Nat) (c : RCause) : RateEq (s.rcError env now c) := by
  unfold Stack.rcError
  split
  · dsimp only
    refine RateEq.on ?_ now false
    exact ((h.notify s.rc.onStart .onStart).mode .stopped).mode .listen
  · exact h

theorem RateEq.switch {s : Stack} (h : RateEq s) (now : Nat) : RateEq (s.rcSwitch env now) := by
  unfold Stack.rcSwitch
  split
  · exact RateEq.next s now
  · exact h

theorem RateEq.rcProcess {s : Stack} (h : RateEq s) (now : Nat) (intid : Pending) (lec : Lec) :
    RateEq (s.rcProcess env now intid lec) := by
  have hx : ∀ (t : Stack) (f : Recon → Recon), RateEq t → RateEq (t.setR f) := fun _ _ h => h
  unfold Stack.rcProcess
  split
  · exact h
  split
  · split
    · exact (hx _ _ h).off now
    split
    · exact (hx _ _ h).off now
    split
    · exact (hx _ _ h).on now false
    split
    · exact .next s now
    · exact h
  · split
    · exact h.off now
    split
    · exact h.switch now
    split
    · exact h.off now
    · dsimp only
      split
      · exact (hx _ _ h).off now
      · exact h
    · split
      · exact h.off now
      · exact h
    · exact (hx _ _ h).switch now
  · dsimp only
    split
    · exact h
    · exact h
  · exact h

theorem RateEq.process {s : Stack} (h : RateEq s) (now : Nat) (bus : BusState) (lec : Lec) : RateEq (s.process env now bus lec) := by
  unfold Stack.process
  dsimp only
  refine RateEq.keep (Keep.processTx env _ now) ?_
  obtain ⟨p, hp⟩ := Slave.trigger_eq env.toEnv s.slv now
  rw [hp]
  have h : RateEq { s with slv := { s.slv with sync := { s.slv.sync with periode := p } } } := h
  generalize ({ s with slv := { s.slv with sync := { s.slv.sync with periode := p } } } : Stack) = t at h ⊢
  unfold Stack.hwError
  dsimp only
  have hb : RateEq (t.hwBusOff env now bus lec) := by
    unfold Stack.hwBusOff
    split
    · exact RateEq.error ((h.mode .stopped).mode .listen) now _
    · exact h
  have hp : RateEq ((t.hwBusOff env now bus lec).hwPassive env now bus) := by
    unfold Stack.hwPassive
    split
    · refine RateEq.error ?_ now _
      generalize t.hwBusOff env now bus lec = u at hb
      show (Slave.drvMode env.toEnv u.slv.link .listen).1.cur = (Slave.drvMode env.toEnv u.slv.link .listen).1.hwRate
      unfold Slave.drvMode
      split <;> exact hb
    · exact hb
  have h1 : RateEq (if (bus ≠ .active ∨ lec ≠ .none) ∧ t.rc.state = .off then (t.hwBusOff env now bus lec).hwPassive env now bus else t) := by
    split
    · exact hp
    · exact h
  generalize (if (bus ≠ .active ∨ lec ≠ .none) ∧ t.rc.state = .off then (t.hwBusOff env now bus lec).hwPassive env now bus else t) = u at h1 ⊢
  split
  · exact h1.rcProcess now _ lec
  · exact h1

theorem RateEq.start {s : Stack} (h : RateEq s) (now : Nat) : RateEq (s.start env now).1 := by
  unfold Stack.start
  have key : ∀ r : Stack × Err, RateEq r.1 →
      RateEq (if r.2 = E.ok then ({ r.1.startAck env with lcsa := .running }, E.ok) else r).1 := by
    intro r h
    split
    · exact h.keep (Keep.trans (startAck_keep env r.1) ⟨rfl, rfl⟩)
    · exact h
  have hx : ∀ (t : Stack) (f : Recon → Recon), RateEq t → RateEq (t.setR f) := fun _ _ h => h
  refine key _ ?_
  split
  · dsimp only
    have h1 := (RateEq.stopBaud (env := env) (hx s (fun c => { c with state := .off }) h)
      (Stack.nodeMode env (s.setR fun c => { c with state := .off }) .stopped).1.slv.link.startup)
    have h2 := RateEq.mode (env := env) (hx _ (fun c => { c with cause := .download }) h1) .operational
    split
    · exact h2
    · exact h2
  · dsimp only
    have h1 := (RateEq.stopBaud (env := env) (hx s (fun c => { c with state := .startup }) h)
      (Stack.nodeMode env (s.setR fun c => { c with state := .startup }) .stopped).1.slv.link.startup)
    refine RateEq.mode ?_ .listen
    unfold Stack.rcStartup
    split
    · exact RateEq.on (hx _ _ (h1.notify _ _)) now true
    · exact h1

theorem RateEq.step {s s' : Stack} {i : SIn} (h : RateEq s)
    (hb : (∃ b, i = .setBaud b) → s.slv.link.mode = .init ∨ s.slv.link.mode = .stopped) (hs : s.step env i = some s') : RateEq s' := by
  by_cases h1 : ∃ now bus lec, i = .process now bus lec
  · obtain ⟨now, bus, lec, rfl⟩ := h1
    injection hs with hs
    rw [← hs]; exact h.process now bus lec
  by_cases h2 : ∃ now, i = .start now
  · obtain ⟨now, rfl⟩ := h2
    injection hs with hs
    rw [← hs]; exact h.start now
  by_cases h3 : noMode i = true
  · have hl := other_link hs (fun now bus lec e => h1 ⟨now, bus, lec, e⟩) (fun now e => h2 ⟨now, e⟩) h3
    unfold RateEq at h ⊢
    generalize s.slv.link = l at hl h hb
    generalize s'.slv.link = l' at hl ⊢
    cases hl with
    | same => exact h
    | startup _ b => exact h
    | baud b => exact setBaud_rate h (hb ⟨b, rfl⟩) b
    | change _ b =>
      unfold Slave.changeBaud
      dsimp only
      have m := Slave.setMode_mode env.toEnv l .stopped
      have hr : (Slave.setMode env.toEnv l .stopped).1.cur = (Slave.setMode env.toEnv l .stopped).1.hwRate := by
        rw [m.2.1, m.2.2.1]; exact h
      have hr2 : (if (Slave.setMode env.toEnv l .stopped).2 = E.ok then Slave.setBaud (Slave.setMode env.toEnv l .stopped).1 b
          else Slave.setMode env.toEnv l .stopped).1.cur =
          (if (Slave.setMode env.toEnv l .stopped).2 = E.ok then Slave.setBaud (Slave.setMode env.toEnv l .stopped).1 b
          else Slave.setMode env.toEnv l .stopped).1.hwRate := by
        split
        · exact setBaud_rate hr (.inr m.1) b
        · exact hr
      generalize (if (Slave.setMode env.toEnv l .stopped).2 = E.ok then Slave.setBaud (Slave.setMode env.toEnv l .stopped).1 b
          else Slave.setMode env.toEnv l .stopped) = r at hr2 ⊢
      split
      · rw [(Slave.setMode_mode env.toEnv r.1 l.mode).2.1, (Slave.setMode_mode env.toEnv r.1 l.mode).2.2.1]; exact hr2
      · exact hr2
  · have : ∃ m, i = .api (.setMode m) := by
      cases i with
      | api j => cases j <;> first | exact ⟨_, rfl⟩ | exact absurd rfl h3
      | _ => exact absurd rfl h3
    obtain ⟨m, rfl⟩ := this
    injection hs with hs
    rw [← hs]
    exact RateEq.mode h m

/-- **C110.**  The rate `lcsa_get_baudrate` reports is the rate the controller was given last, in every history of API calls,
received frames - baud rate messages included -, searches and driver refusals in which `lcsa_set_baudrate` is
called only while the node is stopped or not yet started.

`_partial`: called on a running node, `lcsa_set_baudrate` returns an error and the new rate is reported all the same. -/
theorem C110_reported_rate_partial (mem : Nat → List Byte) (info : XInfo) (is : List SIn) (s : Stack)
    (hw : RateWhenStopped env (boot mem info) is) (hr : run env (boot mem info) is = some s) :
    s.slv.link.cur = s.slv.link.hwRate := by
  suffices g : ∀ (is : List SIn) (t : Stack), RateEq t → RateWhenStopped env t is → t.run env is = some s → RateEq s from
    g is (boot mem info) (show (boot mem info).slv.link.cur = _ from rfl) hw hr
  intro is
  induction is with
  | nil => intro t h _ hr; injection hr with hr; rw [← hr]; exact h
  | cons i is ih =>
    intro t h hw hr
    simp only [Stack.run, Option.bind_eq_some_iff] at hr
    obtain ⟨t1, ht, hr⟩ := hr
    exact ih t1 (h.step hw.1 ht) (hw.2 t1 ht) hr

/-! ## Examples -/

/-- the node falls silent: stopped, bus off, and running again -/
def exSilent : List SIn := exOff ++ [.setState .stopped, .process 810 .busOff .none, .setState .running, .process 820 .active .none]

/-- C109: the hypotheses are met by a start, a search, operation and an online search, and both outcomes occur. -/
example : (∀ k, exA.modeOk k = true) ∧
    ((run exA (exS.start exA 10).1 [.process 700 .active .none]).map fun s => decide (InOperation s)) = some true ∧
    ((run exA (exS.start exA 10).1 [.process 700 .active .none, .process 800 .busOff .none]).map fun s =>
      decide (Searching s)) = some true :=
  ⟨fun _ => rfl, by decide +kernel, by decide +kernel⟩

/-- C109: a node that was in operation and is stopped when the error comes -/
example : Reaches exA (exOff ++ [.setState .stopped]) fun s => decide (s.rc.state = .off ∧ s.lcsa = .stopped ∧ InOperation s) := by
  unfold Reaches; decide +kernel

/-- **C109** fails after an error that came while the state was STOPPED: the state is RUNNING again, no search is running
and the controller only listens. -/
theorem C109_counterexample : ∃ s, run exA (boot exMem exInfo) exSilent = some s ∧
    s.lcsa = .running ∧ ¬ Searching s ∧ ¬ InOperation s ∧ Deaf s ∧ s.slv.link.drv = .listen := by
  have h : Reaches exA exSilent fun s => decide (s.lcsa = .running ∧ ¬ Searching s ∧ ¬ InOperation s ∧ Deaf s ∧
      s.slv.link.drv = .listen) := by unfold Reaches; decide +kernel
  obtain ⟨s, hr, hp⟩ := h.get
  exact ⟨s, hr, of_decide_eq_true hp⟩

/-- C109: inputs that do not wake such a node, frames and the state RUNNING among them -/
example : ∀ i ∈ [SIn.setState .running, .rx 830 5 8 0x610 false [1, 0, 0, 0, 0, 0, 0, 0], .process 840 .active .none], noRescue i = true := by
  decide +kernel

theorem rateWhenStopped_plain (is : List SIn) : ∀ s, (∀ i ∈ is, ∀ b, i ≠ .setBaud b) → RateWhenStopped env s is := by
  induction is with
  | nil => exact fun _ _ => trivial
  | cons i is ih =>
    exact fun s h => ⟨fun ⟨b, e⟩ => absurd e (h i (List.mem_cons_self ..) b),
      fun s' _ => ih s' fun j hj => h j (List.mem_cons_of_mem _ hj)⟩

/-- C110: the hypotheses are met by an online search that found 1000 kBit. -/
example : RateWhenStopped exA (boot exMem exInfo) exHeard ∧ Reaches exA exHeard fun s => decide (s.slv.link.cur = 1000) := by
  refine ⟨rateWhenStopped_plain _ _ ?_, by unfold Reaches; decide +kernel⟩
  intro i hi b e
  subst e
  simp [exHeard, exOn, exOff, exSetup] at hi

/-- **C110** fails if the rate is set on a running node: 500 is reported and the controller stays at 250. -/
theorem C110_counterexample : ∃ s, run exA (boot exMem exInfo) (exOff ++ [.setBaud 500]) = some s ∧
    InOperation s ∧ s.slv.link.cur = 500 ∧ s.slv.link.hwRate = 250 := by
  have h : Reaches exA (exOff ++ [.setBaud 500]) fun s => decide (InOperation s ∧ s.slv.link.cur = 500 ∧ s.slv.link.hwRate = 250) := by
    unfold Reaches; decide +kernel
  obtain ⟨s, hr, hp⟩ := h.get
  exact ⟨s, hr, of_decide_eq_true hp⟩

end Stack
end LiCan
