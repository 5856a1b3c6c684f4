import Verif.Lemmas.SlaveSync
/-! # What a system message can do: case analysis, and the application calls of every step -/
namespace LiCan
open Node
namespace Slave

/-- the log grew by frames only, the table is as before -/
structure SentOnly (n n' : Node) : Prop where
  light : Light n n'
  log : ∃ l, n'.log = l ++ n.log ∧ OnlyFrames l

theorem SentOnly.refl (n : Node) : SentOnly n n := ⟨.refl _, [], rfl, by simp [OnlyFrames]⟩
theorem SentOnly.trans {a b c : Node} (h : SentOnly a b) (g : SentOnly b c) : SentOnly a c := by
  obtain ⟨l1, e1, o1⟩ := h.log
  obtain ⟨l2, e2, o2⟩ := g.log
  refine ⟨h.light.trans g.light, l2 ++ l1, by rw [e2, e1, List.append_assoc], ?_⟩
  intro e he
  rcases List.mem_append.1 he with he | he
  · exact o2 e he
  · exact o1 e he
theorem SentOnly.sendSys (env : Env) (n : Node) (nr : Nat) (d : List Byte) : SentOnly n (n.sendSys env nr d).1 :=
  ⟨.sendSys .., sendSys_log ..⟩
theorem SentOnly.sendOneError (env : Env) (n : Node) : SentOnly n (sendOneError env n).1 :=
  ⟨sendOneError_light .., sendOneError_log ..⟩

theorem drain_sentOnly (env : Env) (k : Nat) : ∀ (r r' : Node × Err), drain env k r = some r' → SentOnly r.1 r'.1 := by
  induction k with
  | zero =>
    intro r r' h
    simp only [drain] at h
    split at h
    · injection h with h; rw [← h]; exact .refl _
    · cases h
  | succ k ih =>
    intro r r' h
    simp only [drain] at h
    split at h
    · injection h with h; rw [← h]; exact .refl _
    · exact (SentOnly.sendOneError env r.1).trans (ih _ _ h)

theorem statusAckn_sentOnly (env : Env) (s : Slave) (tp : Nat) : ∃ n, SentOnly s.node n ∧ (statusAckn env s tp).1 = { s with node := n } := by
  unfold statusAckn
  split
  · exact ⟨s.node, .refl _, rfl⟩
  · split
    · exact ⟨s.node, .refl _, rfl⟩
    · exact ⟨_, .sendSys .., rfl⟩

theorem versionAckn_sentOnly (env : Env) (s : Slave) (tp : Nat) : ∃ n, SentOnly s.node n ∧ (versionAckn env s tp).1 = { s with node := n } := by
  unfold versionAckn
  split
  · exact ⟨s.node, .refl _, rfl⟩
  · split
    · exact ⟨s.node, .refl _, rfl⟩
    · simp only
      split
      · exact ⟨_, .sendSys .., rfl⟩
      · exact ⟨_, (SentOnly.sendSys ..).trans (.sendSys ..), rfl⟩

theorem forRows_sentOnly {f : Slave → Nat → Slave × Err}
    (hf : ∀ s i, ∃ n, SentOnly s.node n ∧ (f s i).1 = { s with node := n }) (is : List Nat) : ∀ s : Slave,
    ∃ n, SentOnly s.node n ∧ (forRows f is s).1 = { s with node := n } := by
  induction is with
  | nil => intro s; exact ⟨s.node, .refl _, rfl⟩
  | cons i is ih =>
    intro s
    simp only [forRows]
    split
    · exact hf s i
    · obtain ⟨n, a, b⟩ := hf s i
      obtain ⟨n', a', b'⟩ := ih (f s i).1
      rw [b] at a' b'
      exact ⟨n', a.trans a', by rw [b, b']⟩

/-- a status request: first the one-shot callback, then the delay, then frames -/
def statusHead (env : Env) (s : Slave) : Slave :=
  { s with
    sys := { s.sys with first := true, rand := if env.randAck then (rand s.sys.rand).1 else s.sys.rand }
    node := { s.node with log := (if env.randAck then [Ev.wait (rand s.sys.rand).2] else []) ++
      (if s.sys.first then [] else calls s.sys.firstCb) ++ s.node.log } }

theorem statusHead_aux (R : Nat → Nat × Nat) (b : Bool) (s : Slave) :
    (let s := if s.sys.first then s
        else { s with sys := { s.sys with first := true } }.callOpt s.sys.firstCb
      if b then
        let r := R s.sys.rand
        { s with sys := { s.sys with rand := r.1 }, node := { s.node with log := .wait r.2 :: s.node.log } }
      else s) =
    { s with
      sys := { s.sys with first := true, rand := if b then (R s.sys.rand).1 else s.sys.rand }
      node := { s.node with log := (if b then [Ev.wait (R s.sys.rand).2] else []) ++
        (if s.sys.first then [] else calls s.sys.firstCb) ++ s.node.log } } := by
  obtain ⟨node, sync, link, sys⟩ := s
  obtain ⟨f, fc, tc, rc, rd⟩ := sys
  cases f <;> cases fc <;> cases b <;> rfl

theorem statusRequest_head (env : Env) (s : Slave) (dst : Option Nat) :
    statusRequest env s dst = match dst with
      | none => forRows (statusAckn env) (List.range s.node.nrMod) (statusHead env s)
      | some tp => statusAckn env (statusHead env s) tp := by
  have key := statusHead_aux rand env.randAck s
  unfold statusRequest statusHead
  simp only at key ⊢
  rw [key]
  cases dst <;> rfl

theorem statusRequest_eff (env : Env) (s : Slave) (dst : Option Nat) :
    ∃ n, SentOnly (statusHead env s).node n ∧ (statusRequest env s dst).1 = { statusHead env s with node := n } := by
  rw [statusRequest_head]
  cases dst with
  | none => exact forRows_sentOnly (statusAckn_sentOnly env) _ _
  | some tp => exact statusAckn_sentOnly env _ tp

/-- the possible effects of a system message -/
inductive SysEff (env : Env) (s : Slave) (src : List Byte) : Slave → Prop
  | none : SysEff env s src s
  | status (h : at8 src 0 = 1) (n : Node) (hn : SentOnly (statusHead env s).node n) :
      SysEff env s src { statusHead env s with node := n }
  | baud (h : at8 src 0 = 2) : SysEff env s src { s with link := (changeBaud env s.link (at8 src 1 * 256 + at8 src 2)).1 }
  | version (h : at8 src 0 = 5) (n : Node) (hn : SentOnly s.node n) : SysEff env s src { s with node := n }
  | time (h : at8 src 0 = 7) (f t : Nat) (z : Int) (d : Bool) (hf : s.sys.timeCb = some f) :
      SysEff env s src { s with node := { s.node with log := .timeCb f t z d :: s.node.log } }
  | cycle (h : at8 src 0 = 8) : SysEff env s src (setCycle env s (at8 src 2)).1
  | number (h : at8 src 0 = 0x20) (hs : env.serial = serialOf src) (tp : Nat) :
      SysEff env s src { s with node := (s.node.changeModuleNr env tp (at8 src 2)).1 }
  | silent (h : at8 src 0 = 0x21 ∨ at8 src 0 = 0x22) (hs : env.serial = serialOf src) (tp : Nat) (htp : tp < env.maxMod) (st : Nat)
      (hst : st = 0 ∨ st = 1) : SysEff env s src { s with node := (s.node.setSilentAwake env tp st).1 }
  | reset (h : at8 src 0 = 0x30) (f : Nat) (b : Byte) (hf : s.sys.resetCb = some f) :
      SysEff env s src { s with node := { s.node with log := .resetCb f b :: s.node.log } }
  | type (h : at8 src 0 = 0x31) (hs : env.serial = serialOf src) (tp : Nat) :
      SysEff env s src { s with node := (s.node.changeType env tp (typeOf src)).1 }

theorem sysSilentAwake_eff (env : Env) (s : Slave) (src : List Byte) (nr st : Nat) (hst : st = 0 ∨ st = 1)
    (hc : at8 src 0 = 0x21 ∨ at8 src 0 = 0x22) : SysEff env s src (sysSilentAwake env s src nr st).1 := by
  unfold sysSilentAwake
  split
  · next hs =>
    split
    · next tp ht =>
      have : tp < env.maxMod := by
        simp only [findNr, List.find?_range_eq_some] at ht
        simpa using ht.2.1
      split
      · exact .silent hc hs tp this st hst
      · exact .none
    · exact .none
  · exact .none

theorem sysMsg_eff {env : Env} {s s' : Slave} {nr dlc : Nat} {src : List Byte} {e : Err}
    (h : sysMsg env s nr dlc src = some (s', e)) : SysEff env s src s' := by
  have triv : ∀ {y : Err}, some (s, y) = some (s', e) → SysEff env s src s' := by
    intro y h
    have := congrArg Prod.fst (Option.some.inj h)
    simp only at this
    rw [← this]; exact .none
  have same : ∀ {r : Slave × Err}, some r = some (s', e) → SysEff env s src r.1 → SysEff env s src s' := by
    intro r h g
    have := congrArg Prod.fst (Option.some.inj h)
    simp only at this
    rw [← this]; exact g
  unfold sysMsg at h
  split at h
  · exact triv h
  simp only at h
  generalize (if nr = 1 then none else findNr env s.node nr) = dst at h
  split at h
  · exact triv h
  split at h
  · exact triv h
  split at h
  · next hc =>
    obtain ⟨n, hn, e1⟩ := statusRequest_eff env s dst
    generalize statusRequest env s dst = r at *
    split at h
    · refine same h ?_; rw [e1]; exact .status hc n hn
    split at h
    · simp only [Option.map_eq_some_iff] at h
      obtain ⟨x, hx, hx'⟩ := h
      have l := drain_sentOnly env _ _ _ hx
      have := congrArg Prod.fst hx'
      simp only at this
      rw [e1] at this l
      rw [← this]
      exact .status hc x.1 (hn.trans l)
    · refine same h ?_; rw [e1]; exact .status hc n hn
  · next hc =>
    split at h
    · exact triv h
    · exact same h (.baud hc)
  · exact triv h
  · next hc =>
    split at h
    · obtain ⟨n, hn, e1⟩ := forRows_sentOnly (versionAckn_sentOnly env) (List.range s.node.nrMod) s
      refine same h ?_; rw [e1]; exact .version hc n hn
    · obtain ⟨n, hn, e1⟩ := versionAckn_sentOnly env s (by assumption)
      refine same h ?_; rw [e1]; exact .version hc n hn
  · next hc =>
    split at h
    · next f hf => exact same h (.time hc f _ _ _ hf)
    · exact triv h
  · next hc => exact same h (.cycle hc)
  · exact triv h
  · exact triv h
  · next hc =>
    split at h
    · exact triv h
    split at h
    · next hs => exact same h (.number hc hs _)
    · exact triv h
  · next hc =>
    split at h
    · exact triv h
    · exact same h (sysSilentAwake_eff env s src nr 0 (.inl rfl) (.inl hc))
  · next hc =>
    split at h
    · exact triv h
    · exact same h (sysSilentAwake_eff env s src nr 1 (.inr rfl) (.inr hc))
  · exact triv h
  · next hc =>
    split at h
    · next f hf => exact same h (.reset hc f _ hf)
    · exact triv h
  · next hc =>
    split at h
    · exact triv h
    split at h
    · next hs => exact same h (.type hc hs _)
    · exact triv h
  · exact triv h

end Slave
end LiCan
