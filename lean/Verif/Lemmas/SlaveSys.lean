import Verif.Lemmas.SlaveBase
/-! # System messages: frame conditions -/
namespace LiCan
open Node
namespace Slave

/-- commands that change the module table -/
def tableCmd (c : Nat) : Prop := c = 0x20 ∨ c = 0x21 ∨ c = 0x22 ∨ c = 0x31

theorem statusAckn_keeps (env : Env) (s : Slave) (tp : Nat) :
    Light s.node (statusAckn env s tp).1.node ∧ (statusAckn env s tp).1.sync = s.sync ∧
    (statusAckn env s tp).1.link = s.link ∧ (statusAckn env s tp).1.sys = s.sys := by
  unfold statusAckn
  split
  · exact ⟨.refl _, rfl, rfl, rfl⟩
  · split
    · exact ⟨.refl _, rfl, rfl, rfl⟩
    · exact ⟨.sendSys .., rfl, rfl, rfl⟩

theorem versionAckn_keeps (env : Env) (s : Slave) (tp : Nat) :
    Light s.node (versionAckn env s tp).1.node ∧ (versionAckn env s tp).1.sync = s.sync ∧
    (versionAckn env s tp).1.link = s.link ∧ (versionAckn env s tp).1.sys = s.sys := by
  unfold versionAckn
  split
  · exact ⟨.refl _, rfl, rfl, rfl⟩
  · split
    · exact ⟨.refl _, rfl, rfl, rfl⟩
    · simp only
      split
      · exact ⟨.sendSys .., rfl, rfl, rfl⟩
      · exact ⟨(Light.sendSys ..).trans (.sendSys ..), rfl, rfl, rfl⟩

theorem forRows_keeps {f : Slave → Nat → Slave × Err}
    (hf : ∀ s i, Light s.node (f s i).1.node ∧ (f s i).1.sync = s.sync ∧ (f s i).1.link = s.link ∧ (f s i).1.sys = s.sys)
    (is : List Nat) : ∀ s : Slave,
    Light s.node (forRows f is s).1.node ∧ (forRows f is s).1.sync = s.sync ∧
    (forRows f is s).1.link = s.link ∧ (forRows f is s).1.sys = s.sys := by
  induction is with
  | nil => intro s; exact ⟨.refl _, rfl, rfl, rfl⟩
  | cons i is ih =>
    intro s
    simp only [forRows]
    split
    · exact hf s i
    · obtain ⟨a, b, c, d⟩ := hf s i
      obtain ⟨a', b', c', d'⟩ := ih (f s i).1
      exact ⟨a.trans a', b'.trans b, c'.trans c, d'.trans d⟩

theorem statusRequest_keeps (env : Env) (s : Slave) (dst : Option Nat) :
    Light s.node (statusRequest env s dst).1.node ∧ (statusRequest env s dst).1.sync = s.sync ∧
    (statusRequest env s dst).1.link = s.link := by
  unfold statusRequest
  simp only
  have h1 : ∀ s : Slave, Light s.node (if s.sys.first = true then s else
      callOpt { node := s.node, sync := s.sync, link := s.link, sys := { s.sys with first := true } } s.sys.firstCb).node ∧
      (if s.sys.first = true then s else
      callOpt { node := s.node, sync := s.sync, link := s.link, sys := { s.sys with first := true } } s.sys.firstCb).sync = s.sync ∧
      (if s.sys.first = true then s else
      callOpt { node := s.node, sync := s.sync, link := s.link, sys := { s.sys with first := true } } s.sys.firstCb).link = s.link := by
    intro s; split
    · exact ⟨.refl _, rfl, rfl⟩
    · exact ⟨callOpt_light { node := s.node, sync := s.sync, link := s.link, sys := { s.sys with first := true } } _, by simp, by simp⟩
  obtain ⟨a, b, c⟩ := h1 s
  generalize (if s.sys.first = true then s else
      callOpt { node := s.node, sync := s.sync, link := s.link, sys := { s.sys with first := true } } s.sys.firstCb) = s1 at *
  have h2 : ∀ s1 : Slave, Light s1.node (if env.randAck = true then ({ node := { s1.node with log := Ev.wait (rand s1.sys.rand).2 :: s1.node.log }, sync := s1.sync, link := s1.link, sys := { s1.sys with rand := (rand s1.sys.rand).1 } } : Slave) else s1).node ∧
      (if env.randAck = true then ({ node := { s1.node with log := Ev.wait (rand s1.sys.rand).2 :: s1.node.log }, sync := s1.sync, link := s1.link, sys := { s1.sys with rand := (rand s1.sys.rand).1 } } : Slave) else s1).sync = s1.sync ∧
      (if env.randAck = true then ({ node := { s1.node with log := Ev.wait (rand s1.sys.rand).2 :: s1.node.log }, sync := s1.sync, link := s1.link, sys := { s1.sys with rand := (rand s1.sys.rand).1 } } : Slave) else s1).link = s1.link := by
    intro s1; split <;> exact ⟨⟨rfl, rfl, rfl, rfl, rfl, rfl, rfl, rfl⟩, rfl, rfl⟩
  obtain ⟨a2, b2, c2⟩ := h2 s1
  generalize (if env.randAck = true then ({ node := { s1.node with log := Ev.wait (rand s1.sys.rand).2 :: s1.node.log }, sync := s1.sync, link := s1.link, sys := { s1.sys with rand := (rand s1.sys.rand).1 } } : Slave) else s1) = s2 at *
  cases dst with
  | none =>
    obtain ⟨x, y, z, _⟩ := forRows_keeps (statusAckn_keeps env) (List.range s2.node.nrMod) s2
    exact ⟨(a.trans a2).trans x, y.trans (b2.trans b), z.trans (c2.trans c)⟩
  | some tp =>
    obtain ⟨x, y, z, _⟩ := statusAckn_keeps env s2 tp
    exact ⟨(a.trans a2).trans x, y.trans (b2.trans b), z.trans (c2.trans c)⟩

theorem sendError_light (env : Env) (n : Node) (e : ErrEntry) : Light n (sendError env n e).1 :=
  .sendSys ..

theorem sendOneError_light (env : Env) (n : Node) : Light n (sendOneError env n).1 := by
  unfold sendOneError
  split
  · next q _ x _ =>
    split
    · exact Light.trans (b := { n with errq := q }) ⟨rfl, rfl, rfl, rfl, rfl, rfl, rfl, rfl⟩ (sendError_light ..)
    · exact ⟨rfl, rfl, rfl, rfl, rfl, rfl, rfl, rfl⟩
  · exact ⟨rfl, rfl, rfl, rfl, rfl, rfl, rfl, rfl⟩

theorem drain_light (env : Env) (k : Nat) : ∀ (r r' : Node × Err), drain env k r = some r' → Light r.1 r'.1 := by
  induction k with
  | zero =>
    intro r r' h
    simp only [drain] at h
    split at h
    · injection h with h; rw [← h]; exact .refl _
    · cases h
  | succ k ih =>
    intro r r' h
    simp only [drain] at h
    split at h
    · injection h with h; rw [← h]; exact .refl _
    · exact (sendOneError_light env r.1).trans (ih _ _ h)

/-- sync and node mode after a system message -/
theorem sysMsg_keeps {env : Env} {s s' : Slave} {nr dlc : Nat} {src : List Byte} {e : Err}
    (h : sysMsg env s nr dlc src = some (s', e)) :
    (∃ c, s'.sync = { s.sync with cycle := c }) ∧
    (¬ tableCmd (at8 src 0) → Light s.node s'.node) ∧
    (at8 src 0 ≠ 0x02 → s'.link = s.link) := by
  have triv : ∀ {x : Slave} {y : Err}, some (s, y) = some (s', e) → 
      (∃ c, s'.sync = { s.sync with cycle := c }) ∧ (¬ tableCmd (at8 src 0) → Light s.node s'.node) ∧
      (at8 src 0 ≠ 0x02 → s'.link = s.link) := by
    intro _ y h
    have := congrArg Prod.fst (Option.some.inj h)
    simp only at this
    subst this
    exact ⟨⟨s.sync.cycle, rfl⟩, fun _ => .refl _, fun _ => rfl⟩
  unfold sysMsg at h
  split at h
  · exact triv (x := s) h
  simp only at h
  generalize (if nr = 1 then none else findNr env s.node nr) = dst at h
  split at h
  · exact triv (x := s) h
  split at h
  · exact triv (x := s) h
  split at h
  · -- status
    next hc =>
    have k := statusRequest_keeps env s dst
    generalize statusRequest env s dst = r at *
    obtain ⟨k1, k2, k3⟩ := k
    split at h
    · injection h with h; rw [h] at k1 k2 k3
      exact ⟨⟨s.sync.cycle, k2⟩, fun _ => k1, fun _ => k3⟩
    split at h
    · simp only [Option.map_eq_some_iff] at h
      obtain ⟨x, hx, hx'⟩ := h
      have l := drain_light env _ _ _ hx
      have := congrArg Prod.fst hx'
      simp only at this
      subst this
      exact ⟨⟨s.sync.cycle, k2⟩, fun _ => k1.trans l, fun _ => k3⟩
    · injection h with h; rw [h] at k1 k2 k3
      exact ⟨⟨s.sync.cycle, k2⟩, fun _ => k1, fun _ => k3⟩
  · next hc =>
    split at h
    · exact triv (x := s) h
    · have := congrArg Prod.fst (Option.some.inj h)
      simp only at this
      subst this
      exact ⟨⟨s.sync.cycle, rfl⟩, fun _ => .refl _, fun hn => absurd hc hn⟩
  · exact triv (x := s) h
  · split at h
    · obtain ⟨a, b, c, d⟩ := forRows_keeps (versionAckn_keeps env) (List.range s.node.nrMod) s
      injection h with h; rw [h] at a b c
      exact ⟨⟨s.sync.cycle, b⟩, fun _ => a, fun _ => c⟩
    · obtain ⟨a, b, c, d⟩ := versionAckn_keeps env s (by assumption)
      injection h with h; rw [h] at a b c
      exact ⟨⟨s.sync.cycle, b⟩, fun _ => a, fun _ => c⟩
  · split at h
    · have := congrArg Prod.fst (Option.some.inj h)
      simp only at this
      subst this
      exact ⟨⟨s.sync.cycle, rfl⟩, fun _ => ⟨rfl, rfl, rfl, rfl, rfl, rfl, rfl, rfl⟩, fun _ => rfl⟩
    · exact triv (x := s) h
  · have := congrArg Prod.fst (Option.some.inj h)
    simp only [setCycle] at this
    subst this
    split
    · exact ⟨⟨_, rfl⟩, fun _ => .refl _, fun _ => rfl⟩
    · exact ⟨⟨_, rfl⟩, fun _ => .refl _, fun _ => rfl⟩
  · exact triv (x := s) h
  · exact triv (x := s) h
  · next hc =>
    split at h
    · exact triv (x := s) h
    split at h
    · have := congrArg Prod.fst (Option.some.inj h)
      simp only at this
      subst this
      exact ⟨⟨s.sync.cycle, rfl⟩, fun hn => absurd (Or.inl hc) hn, fun _ => rfl⟩
    · exact triv (x := s) h
  · next hc =>
    split at h
    · exact triv (x := s) h
    · injection h with h
      have h := congrArg Prod.fst h
      simp only at h
      subst h
      unfold sysSilentAwake
      repeat' split
      all_goals exact ⟨⟨s.sync.cycle, rfl⟩, fun hn => absurd (Or.inr (Or.inl hc)) hn, fun _ => rfl⟩
  · next hc =>
    split at h
    · exact triv (x := s) h
    · injection h with h
      have h := congrArg Prod.fst h
      simp only at h
      subst h
      unfold sysSilentAwake
      repeat' split
      all_goals exact ⟨⟨s.sync.cycle, rfl⟩, fun hn => absurd (Or.inr (Or.inr (Or.inl hc))) hn, fun _ => rfl⟩
  · exact triv (x := s) h
  · split at h
    · have := congrArg Prod.fst (Option.some.inj h)
      simp only at this
      subst this
      exact ⟨⟨s.sync.cycle, rfl⟩, fun _ => ⟨rfl, rfl, rfl, rfl, rfl, rfl, rfl, rfl⟩, fun _ => rfl⟩
    · exact triv (x := s) h
  · next hc =>
    split at h
    · exact triv (x := s) h
    split at h
    · have := congrArg Prod.fst (Option.some.inj h)
      simp only at this
      subst this
      exact ⟨⟨s.sync.cycle, rfl⟩, fun hn => absurd (Or.inr (Or.inr (Or.inr hc))) hn, fun _ => rfl⟩
    · exact triv (x := s) h
  · exact triv (x := s) h

end Slave
end LiCan
