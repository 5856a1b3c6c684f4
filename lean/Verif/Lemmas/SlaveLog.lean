import Verif.Lemmas.NodeLog
/-! # Two slaves that differ in the calls of the process image only -/
namespace LiCan
namespace Node

/-- is the event a call of an application function without arguments (the callbacks of requests and of the process image)? -/
def isCall : Ev → Bool
  | .call _ => true
  | _ => false

/-- the other events -/
def vis (l : List Ev) : List Ev := l.filter fun e => !isCall e

theorem vis_append (a b : List Ev) : vis (a ++ b) = vis a ++ vis b := List.filter_append ..

theorem vis_calls {l : List Ev} (h : ∀ e ∈ l, ∃ f, e = Ev.call f) : vis l = [] := by
  unfold vis
  rw [List.filter_eq_nil_iff]
  intro e he
  obtain ⟨f, rfl⟩ := h e he
  simp [isCall]

/-- equal but for the calls in the log -/
structure Alike (a b : Node) : Prop where
  rest : b = { a with log := b.log }
  evs  : vis b.log = vis a.log

theorem Alike.refl (a : Node) : Alike a a := ⟨rfl, rfl⟩

theorem Alike.prep {a b : Node} (h : Alike a b) : a = prep a.log { a with log := [] } ∧ b = Node.prep b.log { a with log := [] } := by
  constructor
  · rfl
  · have := h.rest
    generalize b.log = l at *
    rw [this]; rfl

theorem Alike.of_prep {la lb : List Ev} (h : vis lb = vis la) (n : Node) : Alike (Node.prep la n) (Node.prep lb n) :=
  ⟨rfl, by show vis (n.log ++ lb) = vis (n.log ++ la); rw [vis_append, vis_append, h]⟩

theorem Alike.pre {α : Type} {f : Node → Node × α} (hf : Pre f) {a b : Node} (h : Alike a b) :
    Alike (f a).1 (f b).1 ∧ (f b).2 = (f a).2 := by
  obtain ⟨h1, h2⟩ := h.prep
  have e := h.evs
  generalize a.log = la at *
  generalize b.log = lb at *
  generalize ({ a with log := [] } : Node) = c at *
  subst h1 h2
  rw [hf la c, hf lb c]
  exact ⟨.of_prep e _, rfl⟩

theorem Alike.preN {f : Node → Node} (hf : PreN f) {a b : Node} (h : Alike a b) : Alike (f a) (f b) := by
  obtain ⟨h1, h2⟩ := h.prep
  have e := h.evs
  generalize a.log = la at *
  generalize b.log = lb at *
  generalize ({ a with log := [] } : Node) = c at *
  subst h1 h2
  rw [hf la c, hf lb c]
  exact .of_prep e _

theorem Alike.rows {a b : Node} (h : Alike a b) : b.rows = a.rows := by rw [h.rest]
theorem Alike.hw {a b : Node} (h : Alike a b) : b.hw = a.hw := by rw [h.rest]
theorem Alike.slots {a b : Node} (h : Alike a b) : b.slots = a.slots := by rw [h.rest]
theorem Alike.errq {a b : Node} (h : Alike a b) : b.errq = a.errq := by rw [h.rest]

theorem Alike.left {a a' b : Node} (h : Alike a b) (c : Mon.OnlyCalls a a') : Alike a' b := by
  obtain ⟨l, hl, rfl⟩ := c
  refine ⟨h.rest, ?_⟩
  rw [vis_append, vis_calls hl, h.evs]; rfl

theorem Alike.right {a b b' : Node} (h : Alike a b) (c : Mon.OnlyCalls b b') : Alike a b' := by
  obtain ⟨l, hl, rfl⟩ := c
  refine ⟨?_, ?_⟩
  · have := h.rest
    generalize b.log = k at *
    rw [this]
  · rw [vis_append, vis_calls hl, h.evs]; rfl

theorem sendProcessData_alike (env : Env) {a b n : Node} (h : Alike a b) (hn : sendProcessData env a = some n) :
    ∃ n', sendProcessData env b = some n' ∧ Alike n n' := by
  obtain ⟨h1, h2⟩ := h.prep
  have e := h.evs
  generalize a.log = la at *
  generalize b.log = lb at *
  generalize ({ a with log := [] } : Node) = c at *
  subst h1 h2
  rw [sendProcessData_pre] at hn ⊢
  obtain ⟨x, hx, rfl⟩ := Option.map_eq_some_iff.1 hn
  rw [hx]
  exact ⟨_, rfl, .of_prep e _⟩

end Node

namespace Slave
open Node

/-- the same slave with older entries in the log and other variables of the process image, except the cycle time -/
def sprep (l : List Ev) (v : SyncVars) (s : Slave) : Slave :=
  { s with node := prep l s.node, sync := { v with cycle := s.sync.cycle } }

/-- a function that reads neither of them -/
def SPre {α : Type} (f : Slave → Slave × α) : Prop := ∀ l v s, f (sprep l v s) = (sprep l v (f s).1, (f s).2)

theorem sendOneError_pre (env : Env) : Pre (sendOneError env) := by
  intro l n
  unfold sendOneError
  have e : (prep l n).errq = n.errq := rfl
  rw [e]
  obtain ⟨q, e, x⟩ := n.errq.getFull env.qSize
  cases x with
  | none => rfl
  | some x =>
    dsimp only
    split
    · exact sendSys_pre env _ (errorBytes x) l { n with errq := q }
    · rfl

theorem drain_pre (env : Env) (k : Nat) : ∀ l (r : Node × Err), drain env k (prep l r.1, r.2) = (drain env k r).map fun x => (prep l x.1, x.2) := by
  induction k with
  | zero =>
    intro l r
    unfold drain
    have e : (prep l r.1).errq = r.1.errq := rfl
    dsimp only
    rw [e]
    split <;> rfl
  | succ k ih =>
    intro l r
    unfold drain
    have e : (prep l r.1).errq = r.1.errq := rfl
    dsimp only
    rw [e]
    split
    · rfl
    · rw [sendOneError_pre, ih]

theorem statusAckn_spre (env : Env) (tp : Nat) : SPre fun s => statusAckn env s tp := by
  intro l v s
  dsimp only
  unfold statusAckn
  have e : (sprep l v s).link = s.link := rfl
  rw [e]
  split
  · rfl
  · split
    · rfl
    · have := sendSys_pre env (s.node.rows tp).nr (statusBytes (s.node.rows tp).typ env.serial) l s.node
      dsimp only at this ⊢
      have e : (sprep l v s).node = prep l s.node := rfl
      have e' : (prep l s.node).rows = s.node.rows := rfl
      rw [e, e', this]
      rfl

theorem versionAckn_spre (env : Env) (tp : Nat) : SPre fun s => versionAckn env s tp := by
  intro l v s
  dsimp only
  unfold versionAckn
  have e : (sprep l v s).link = s.link := rfl
  rw [e]
  split
  · rfl
  · split
    · rfl
    · have := sendSys_pre env (s.node.rows tp).nr (version1Bytes (u8 env.boot.1) (u16 env.boot.2) (u8 env.soft.1) (u16 env.soft.2)) l s.node
      dsimp only at this ⊢
      have e : (sprep l v s).node = prep l s.node := rfl
      have e' : (prep l s.node).rows = s.node.rows := rfl
      rw [e, e', this]
      generalize sendSys env s.node (s.node.rows tp).nr (version1Bytes (u8 env.boot.1) (u16 env.boot.2) (u8 env.soft.1) (u16 env.soft.2)) = q
      dsimp only
      split
      · rfl
      · have := sendSys_pre env (s.node.rows tp).nr (version2Bytes (u32 env.ident.1) (u32 env.ident.2)) l q.1
        dsimp only at this ⊢
        rw [this]
        rfl

theorem forRows_spre {f : Slave → Nat → Slave × Err} (hf : ∀ i, SPre fun s => f s i) (is : List Nat) : SPre (forRows f is) := by
  induction is with
  | nil => intro l v s; rfl
  | cons i is ih =>
    intro l v s
    unfold forRows
    have := hf i l v s
    dsimp only at this ⊢
    rw [this]
    dsimp only
    split
    · rfl
    · exact ih ..

theorem callOpt_spre (l : List Ev) (v : SyncVars) (s : Slave) (f : Option Nat) : (sprep l v s).callOpt f = sprep l v (s.callOpt f) := by
  cases f <;> rfl

theorem sysSilentAwake_spre (env : Env) (src : List Byte) (nr st : Nat) : SPre fun s => sysSilentAwake env s src nr st := by
  intro l v s
  dsimp only
  unfold sysSilentAwake
  split
  · have e : findNr env (sprep l v s).node nr = findNr env s.node nr := rfl
    rw [e]
    cases findNr env s.node nr with
    | none => rfl
    | some tp =>
      dsimp only
      have e : (sprep l v s).node = prep l s.node := rfl
      have e' : (prep l s.node).rows = s.node.rows := rfl
      rw [e, e']
      split
      · have := setSilentAwake_pre env tp st l s.node
        dsimp only at this
        rw [this]; rfl
      · rfl
  · rfl

/-- the state in which a status request is answered -/
def statusPrep (env : Env) (s : Slave) : Slave :=
  let s := if s.sys.first then s
    else { s with sys := { s.sys with first := true } }.callOpt s.sys.firstCb
  if env.randAck then
      let r := rand s.sys.rand
      { s with sys := { s.sys with rand := r.1 }, node := { s.node with log := .wait r.2 :: s.node.log } }
    else s

theorem statusPrep_spre (env : Env) (l : List Ev) (v : SyncVars) (s : Slave) : statusPrep env (sprep l v s) = sprep l v (statusPrep env s) := by
  unfold statusPrep
  dsimp only
  have h : (if (sprep l v s).sys.first then sprep l v s
      else { sprep l v s with sys := { (sprep l v s).sys with first := true } }.callOpt (sprep l v s).sys.firstCb) =
      sprep l v (if s.sys.first then s else { s with sys := { s.sys with first := true } }.callOpt s.sys.firstCb) := by
    have e : (sprep l v s).sys = s.sys := rfl
    rw [e]
    split
    · rfl
    · exact callOpt_spre l v { s with sys := { s.sys with first := true } } s.sys.firstCb
  rw [h]
  generalize (if s.sys.first then s else { s with sys := { s.sys with first := true } }.callOpt s.sys.firstCb) = t
  split
  · rfl
  · rfl

theorem statusRequest_spre (env : Env) (dst : Option Nat) : SPre fun s => statusRequest env s dst := by
  intro l v s
  have e : ∀ s, statusRequest env s dst = match dst with
    | none => forRows (statusAckn env) (List.range (statusPrep env s).node.nrMod) (statusPrep env s)
    | some tp => statusAckn env (statusPrep env s) tp := fun s => rfl
  dsimp only
  rw [e, e, statusPrep_spre]
  generalize statusPrep env s = t
  cases dst with
  | none => exact forRows_spre (statusAckn_spre env) _ l v t
  | some tp => exact statusAckn_spre env tp l v t

theorem statusTail_spre (env : Env) (dst : Option Nat) (l : List Ev) (v : SyncVars) (r q : Slave × Err) (h : r = (sprep l v q.1, q.2)) :
    (if dst = none ∧ r.2 ≠ E.ok then some r
      else if env.sysErr then
        (drain env r.1.node.errq.count (r.1.node, r.2)).map fun x => ({ r.1 with node := x.1 }, x.2)
      else some r) =
    (if dst = none ∧ q.2 ≠ E.ok then some q
      else if env.sysErr then
        (drain env q.1.node.errq.count (q.1.node, q.2)).map fun x => ({ q.1 with node := x.1 }, x.2)
      else some q).map fun x => (sprep l v x.1, x.2) := by
  subst h
  dsimp only
  split
  · rfl
  · split
    · have := drain_pre env q.1.node.errq.count l (q.1.node, q.2)
      have e : (sprep l v q.1).node = prep l q.1.node := rfl
      have e' : (prep l q.1.node).errq = q.1.node.errq := rfl
      dsimp only at this
      rw [e, e', this]
      cases drain env q.1.node.errq.count (q.1.node, q.2) with
      | none => rfl
      | some x => rfl
    · rfl

theorem sysMsg_spre (env : Env) (nr dlc : Nat) (src : List Byte) (l : List Ev) (v : SyncVars) (s : Slave) :
    sysMsg env (sprep l v s) nr dlc src = (sysMsg env s nr dlc src).map fun r => (sprep l v r.1, r.2) := by
  unfold sysMsg
  have ef : findNr env (sprep l v s).node nr = findNr env s.node nr := rfl
  have en : (sprep l v s).node.nrMod = s.node.nrMod := rfl
  rw [ef, en]
  split
  · rfl
  · dsimp only
    generalize (if nr = 1 then none else findNr env s.node nr) = dst
    split
    · rfl
    · split
      · rfl
      · split
        · exact statusTail_spre env dst l v _ _ (statusRequest_spre env dst l v s)
        · split
          · rfl
          · rfl
        · rfl
        · cases dst with
          | none => exact congrArg some (forRows_spre (versionAckn_spre env) _ l v s)
          | some tp => exact congrArg some (versionAckn_spre env tp l v s)
        · have e : (sprep l v s).sys = s.sys := rfl
          rw [e]
          cases s.sys.timeCb with
          | none => rfl
          | some f => rfl
        · unfold setCycle
          split
          · rfl
          · rfl
        · rfl
        · rfl
        · cases dst with
          | none => rfl
          | some tp =>
            dsimp only
            split
            · have := changeModuleNr_pre env tp (at8 src 2) l s.node
              have e : (sprep l v s).node = prep l s.node := rfl
              dsimp only at this
              rw [e, this]
              rfl
            · rfl
        · split
          · rfl
          · exact congrArg some (sysSilentAwake_spre env src nr 0 l v s)
        · split
          · rfl
          · exact congrArg some (sysSilentAwake_spre env src nr 1 l v s)
        · rfl
        · have e : (sprep l v s).sys = s.sys := rfl
          rw [e]
          cases s.sys.resetCb with
          | none => rfl
          | some f => rfl
        · cases dst with
          | none => rfl
          | some tp =>
            dsimp only
            split
            · have := changeType_pre env tp (typeOf src) l s.node
              have e : (sprep l v s).node = prep l s.node := rfl
              dsimp only at this
              rw [e, this]
              rfl
            · rfl
        · rfl

/-- two slaves that differ in the process image and the calls only -/
structure Twin (a b : Slave) : Prop where
  node : Alike a.node b.node
  link : b.link = a.link
  sys  : b.sys = a.sys
  cyc  : b.sync.cycle = a.sync.cycle
  stamp : b.sync.stamp = a.sync.stamp
  per  : b.sync.periode = a.sync.periode

theorem Twin.refl (a : Slave) : Twin a a := ⟨.refl _, rfl, rfl, rfl, rfl, rfl⟩

theorem Twin.sprep {a b : Slave} (h : Twin a b) :
    ∃ c la lb, a = Slave.sprep la a.sync c ∧ b = Slave.sprep lb b.sync c ∧ vis lb = vis la := by
  obtain ⟨h1, h2⟩ := h.node.prep
  refine ⟨{ a with node := { a.node with log := [] } }, a.node.log, b.node.log, ?_, ?_, h.node.evs⟩
  · rfl
  · obtain ⟨bn, bs, bl, by_⟩ := b
    have := h.link; have := h.sys; have hc := h.cyc
    dsimp only at *
    subst bl by_
    unfold Slave.sprep
    dsimp only
    rw [← hc, ← h2]

theorem Twin.of_sprep {la lb : List Ev} (h : vis lb = vis la) {va vb : SyncVars} (h1 : vb.stamp = va.stamp) (h2 : vb.periode = va.periode)
    (c : Slave) : Twin (Slave.sprep la va c) (Slave.sprep lb vb c) :=
  ⟨.of_prep h _, rfl, rfl, rfl, h1, h2⟩

theorem sysMsg_twin (env : Env) {a b : Slave} (h : Twin a b) (nr dlc : Nat) (src : List Byte) {r : Slave × Err}
    (hr : sysMsg env a nr dlc src = some r) : ∃ b', sysMsg env b nr dlc src = some (b', r.2) ∧ Twin r.1 b' := by
  obtain ⟨c, la, lb, ha, hb, e⟩ := h.sprep
  have h1 := h.stamp
  have h2 := h.per
  generalize a.sync = va at *
  generalize b.sync = vb at *
  subst ha hb
  rw [sysMsg_spre] at hr ⊢
  obtain ⟨x, hx, rfl⟩ := Option.map_eq_some_iff.1 hr
  rw [hx]
  exact ⟨_, rfl, .of_sprep e h1 h2 _⟩

end Slave
end LiCan
