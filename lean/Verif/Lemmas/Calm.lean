import Verif.Props.Reconnect
import Verif.Lemmas.SlaveApps
/-! # What leaves the reported state and the search callbacks alone -/
namespace LiCan
namespace Stack
open Spec

variable {env : AEnv}

/-- the search callbacks called, latest first -/
def notes (s : Stack) : List ACall := (Slave.apps (logOf s)).filter ofSearch

/-- same reported state, no search callback -/
def Calm (s s' : Stack) : Prop := s'.lcsa = s.lcsa ∧ notes s' = notes s

theorem Calm.refl (s : Stack) : Calm s s := ⟨rfl, rfl⟩
theorem Calm.trans {a b c : Stack} (h : Calm a b) (g : Calm b c) : Calm a c := ⟨g.1.trans h.1, g.2.trans h.2⟩

theorem notes_of_log {s s' : Stack} (h : logOf s' = logOf s) : notes s' = notes s := by unfold notes; rw [h]

theorem Quiet.calm {s s' : Stack} (h : Quiet s s') : Calm s s' := by
  refine ⟨h.lcsa, ?_⟩
  obtain ⟨e, k, hn, ha⟩ := h.node
  have hl : logOf s' = e ++ logOf s := by show s'.slv.node.log = _; rw [hn]
  unfold notes
  rw [hl, Slave.apps_append, List.filter_append]
  have : (Slave.apps e).filter ofSearch = [] := by
    rw [List.filter_eq_nil_iff]
    intro c hc
    simp only [Slave.apps, List.mem_filterMap] at hc
    obtain ⟨x, hx, hc⟩ := hc
    rcases ha x hx with ⟨c', e', hs⟩ | ⟨nr, d, ok, e'⟩
    · subst e'
      simp only [Option.some.injEq] at hc
      rw [← hc, hs]; exact Bool.false_ne_true
    · subst e'; cases hc
  rw [this]; rfl

theorem Calm.slv {s s' : Stack} (h1 : s'.lcsa = s.lcsa) (h2 : Slave.SameApps s.slv.node s'.slv.node) : Calm s s' := by
  refine ⟨h1, ?_⟩
  unfold notes
  rw [show Slave.apps (logOf s') = Slave.apps (logOf s) from h2]

theorem Calm.tx (env : AEnv) (s : Stack) (nr : Nat) (d : List Byte) : Calm s (s.ctrlTx env nr d) := ⟨rfl, rfl⟩
theorem Calm.port (env : AEnv) (s : Stack) (c : ACall) (hc : ofSearch c = false := by rfl) : Calm s (s.callPort env c).1 :=
  (Quiet.callPort env s c hc).calm

theorem Calm.command (env : AEnv) (s : Stack) (nr tp : Nat) (src : List Byte) : Calm s (s.command env nr tp src).1 := by
  unfold Stack.command
  split
  · exact (Quiet.versionShort env s nr src).calm
  · exact (Quiet.versionLong1 s src).calm
  · exact (Quiet.versionLong2 env s nr src).calm
  · exact (Quiet.dlStart1 s src).calm
  · exact (Quiet.dlStart2 env s nr tp src).calm
  · exact (Quiet.dlData env s nr src).calm
  · exact (Quiet.dlBlockEnd env s nr src).calm
  · exact (Quiet.dlEnd env s nr).calm
  · unfold tnlX; dsimp only; split
    · exact .port env s _
    · exact .refl s
  · unfold tnlX; dsimp only; split
    · exact .port env s _
    · exact .refl s
  · unfold Stack.tnlOpen
    have hq := Calm.port env s .tnlOpen
    generalize s.callPort env .tnlOpen = r at hq ⊢
    split
    · simp only
      split
      · split
        · refine hq.trans ?_
          refine Calm.slv rfl ?_
          refine Slave.SameApps.trans (Slave.define_apps env.toEnv r.1.slv.node 6 { id := idOf 0x602 nr 0, mask := 0x7FF#16, dlc := 8, svc := Svc.asyncRx }) ?_
          rfl
        · exact hq.trans ⟨rfl, rfl⟩
      · exact hq.trans ⟨rfl, rfl⟩
    · exact ⟨rfl, rfl⟩
  · unfold Stack.tnlCloseReq
    have hq := Calm.port env s .tnlFree
    generalize s.callPort env .tnlFree = r at hq ⊢
    simp only
    split
    · exact hq.trans ⟨rfl, rfl⟩
    · exact hq.trans ⟨rfl, rfl⟩
  · unfold Stack.tnlReset
    split
    · have hq := Calm.port env s .tnlClear
      generalize s.callPort env .tnlClear = r at hq ⊢
      simp only
      split
      · exact hq.trans (.port env _ _)
      · exact hq
    · exact .refl s
  · exact .refl s
  · unfold Stack.tnlCloseAck
    split
    · exact (Calm.port env s .tnlFree).trans ⟨rfl, rfl⟩
    · exact .refl s
  · exact .refl s
  · unfold Stack.tnlCloseDeny
    split
    · exact ⟨rfl, rfl⟩
    · exact .refl s
  · exact .refl s
  · exact .refl s
  · exact (Quiet.ulBlockAckn env s).calm
  · exact (Quiet.ulStop s).calm
  · exact (Quiet.ulStop s).calm
  · exact (Quiet.infoShort env s nr src).calm
  · exact (Quiet.ulStart1 s nr src).calm
  · exact (Quiet.ulStart2 env s nr src).calm
  · exact .refl s

theorem Calm.asyncRx (env : AEnv) (s : Stack) (nr : Nat) (src : List Byte) : Calm s (s.asyncRx env nr src).1 := by
  unfold Stack.asyncRx
  split
  · exact .refl s
  split
  · exact .refl s
  · exact .command env s nr _ src

theorem Calm.ctrlRx (env : AEnv) (s : Stack) (obj id : Nat) (src : List Byte) : Calm s (s.ctrlRx env obj id src) := by
  unfold Stack.ctrlRx
  split
  · have hf : ∀ (l : List Nat) (s : Stack), Calm s (l.foldl (ctrlStep env obj (asyncNrOfId id) src) s) := by
      intro l
      induction l with
      | nil => exact fun s => .refl s
      | cons k l ih =>
        intro s
        rw [List.foldl_cons]
        refine Calm.trans ?_ (ih _)
        unfold Stack.ctrlStep
        split
        · exact (Calm.asyncRx env s _ src).trans (.slv rfl (Slave.report_apps ..))
        · exact .refl s
    exact hf _ s
  · exact .refl s

theorem Calm.dataRx (env : AEnv) (s : Stack) (obj dlc : Nat) (src : List Byte) : Calm s (s.dataRx env obj dlc src) := by
  unfold Stack.dataRx
  split
  · exact .port env s _
  · exact .refl s

theorem Calm.enqueue (env : AEnv) (s : Stack) (nr dlc : Nat) (src : List Byte) : Calm s (s.enqueue env nr dlc src).1 := by
  have hh : ∀ s : Stack, Calm s (handleQ env s).1 := by
    intro s
    unfold handleQ
    split
    · dsimp only
      split <;> exact ⟨rfl, rfl⟩
    · exact .refl s
  have hk : ∀ s : Stack, Calm s (handlerTx env s) := by
    intro s
    unfold handlerTx
    split
    · split
      · exact (hh s).trans (.slv rfl (Slave.report_apps ..))
      · exact .refl s
    · exact .refl s
  unfold Stack.enqueue
  split
  · exact .refl s
  split
  · exact .refl s
  · dsimp only
    refine Calm.trans ?_ (hk _)
    exact ⟨rfl, rfl⟩

theorem Calm.retry (env : AEnv) (s : Stack) : Calm s (s.putcRetry env).1 := by
  unfold Stack.putcRetry
  have h := Calm.enqueue env s s.tnl.own s.tnl.tmp.length s.tnl.tmp
  generalize s.enqueue env s.tnl.own s.tnl.tmp.length s.tnl.tmp = r at h ⊢
  simp only
  split
  · exact h.trans ⟨rfl, rfl⟩
  · exact h

theorem Calm.putc (env : AEnv) (s : Stack) (x : Byte) : Calm s (s.putc env x).1 := by
  unfold Stack.putc
  split
  · exact .refl s
  split
  · simp only
    split
    · refine Calm.trans ?_ (.retry env _)
      exact ⟨rfl, rfl⟩
    · exact ⟨rfl, rfl⟩
  · exact .refl s

theorem Calm.processTx (env : AEnv) (s : Stack) (now : Nat) : Calm s (s.processTx env now).1 := by
  unfold Stack.processTx
  split
  · exact .refl s
  split
  · split
    · have h := Calm.enqueue env s s.tnl.own s.tnl.tmp.length s.tnl.tmp
      generalize s.enqueue env s.tnl.own s.tnl.tmp.length s.tnl.tmp = r at h ⊢
      simp only
      split
      · exact h.trans ⟨rfl, rfl⟩
      · exact h
    · exact .refl s
  · exact .refl s

/-- all inputs but those of the search and of the state -/
theorem other_calm {s s' : Stack} {i : SIn} (h : s.step env i = some s') (h1 : ∀ now bus lec, i ≠ .process now bus lec)
    (h2 : ∀ now, i ≠ .start now) (h3 : ∀ l, i ≠ .setState l) (h4 : ∀ b, i ≠ .init b) : Calm s s' := by
  have ret : ∀ {t : Stack}, some t = some s' → Calm s t → Calm s s' := by
    intro t e k
    rw [← Option.some.inj e]; exact k
  cases i with
  | rx now obj dlc id ext data =>
    simp only [Stack.step, Stack.rx] at h
    split at h
    · exact ret h (.refl s)
    split at h
    · exact ret h (.refl s)
    simp only [Option.map_eq_some_iff] at h
    obtain ⟨v, hv, h⟩ := h
    subst h
    have h0 : Calm s (Stack.setSlv env (s.setR fun c => { c with pending := .msg }) v) :=
      .slv rfl (Slave.step_apps (x := .frame now obj dlc id data) hv)
    exact ((h0.trans (Calm.processTx env (Stack.setSlv env (s.setR fun c => { c with pending := .msg }) v) now)).trans
      (Calm.ctrlRx env _ obj id data)).trans (Calm.dataRx env _ obj dlc data)
  | process now bus lec => exact absurd rfl (h1 now bus lec)
  | start now => exact absurd rfl (h2 now)
  | init baud => exact absurd rfl (h4 baud)
  | setState l => exact absurd rfl (h3 l)
  | setBaud b => exact ret h ⟨rfl, rfl⟩
  | api i =>
    simp only [Stack.step] at h
    split at h
    · simp only [Option.map_eq_some_iff] at h
      obtain ⟨v, hv, h⟩ := h
      subst h
      exact .slv rfl (Slave.step_apps hv)
    · exact ret h (.refl s)
  | hnd k f => exact ret h (by unfold Stack.setHnd; split <;> exact ⟨rfl, rfl⟩)
  | dlStart c => exact ret h (Quiet.dlStart env s c).calm
  | act a => exact ret h (Quiet.act env s a).calm
  | ulData fuel data => exact (Quiet.ulData env fuel s s' data h).calm
  | putc x => exact ret h (.putc env s x)
  | retry =>
    refine ret h ?_
    split
    · exact .refl s
    · exact .retry env s
  | xonOff code =>
    refine ret h ?_
    unfold Stack.xonOff
    split
    · exact .refl s
    · exact .tx env s _ _
  | shutdown =>
    refine ret h ?_
    unfold Stack.tnlShutdown
    split
    · exact .refl s
    · exact ⟨rfl, rfl⟩
  | enqueue nr dlc src => exact ret h (.enqueue env s nr dlc src)
  | info o => exact ret h ⟨rfl, rfl⟩
  | rcCb k f => exact ret h (by unfold Stack.setRcCb; cases k <;> (dsimp only; split <;> exact ⟨rfl, rfl⟩))

theorem init_notes (env : AEnv) (s : Stack) (b : Nat) : notes (s.init env b).1 = notes s := by
  have key : ∀ (s1 : Stack) (b : Nat), notes s1 = notes s → notes (s1.setSlv env (s1.slv.init env.toEnv b).1) = notes s := by
    intro s1 b h
    rw [← h]
    unfold notes
    rw [show Slave.apps (logOf (s1.setSlv env (s1.slv.init env.toEnv b).1)) = Slave.apps (logOf s1) from
      Slave.step_apps (env := env.toEnv) (s := s1.slv) (x := .init b) rfl]
  unfold Stack.init
  refine key _ _ ?_
  have h3 : ∀ s1 : Stack, notes s1 = notes s → ∀ p : Prop, ∀ [Decidable p],
      notes (if p then { s1 with lcsa := .download } else s1) = notes s := by
    intro s1 h p _
    split
    · exact h
    · exact h
  refine h3 _ ?_ _
  split
  · rfl
  · rfl

end Stack
end LiCan
