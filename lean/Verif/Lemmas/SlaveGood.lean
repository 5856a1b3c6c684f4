import Verif.Lemmas.SlaveSync
import Verif.Lemmas.NodeExample
/-! # The module table invariants along slave histories -/
namespace LiCan
open Node Spec
namespace Slave

/-- inputs whose effect on the module table is covered by the table specification: no number or
type change, no second initialisation -/
def BasicIn (env : Env) : In → Prop
  | .frame _ obj _ _ data =>
    (obj = 2 ∨ (obj = 3 ∧ env.sysObj2 = true)) → at8 data 0 ≠ 0x20 ∧ at8 data 0 ≠ 0x31
  | .table o => Basic o
  | .init _ => False
  | _ => True

/-- the slave states reached by such inputs after a successful initialisation -/
def SReach (env : Env) (s : Slave) : Prop :=
  ∃ (mem : Nat → List Byte) (baud : Nat) (is : List In), (Slave.init env (Slave.boot mem) baud).2 = E.ok ∧
    (∀ i ∈ is, BasicIn env i) ∧ run env (Slave.init env (Slave.boot mem) baud).1 is = some s

/-- the table invariant -/
def TableInv (env : Env) (n : Node) : Prop := ∃ t, Good env n t ∧ NrInv t.mods

theorem TableInv.light {env : Env} {n n' : Node} (h : TableInv env n) (l : Light n n') : TableInv env n' := by
  obtain ⟨t, g, i⟩ := h
  exact ⟨t, l.good g, i⟩

theorem TableInv.step {env : Env} (he : EnvOk env) {n : Node} (h : TableInv env n) {o : Op} (hb : Basic o) :
    TableInv env (Node.step env n o).1 := by
  obtain ⟨t, g, i⟩ := h
  exact ⟨_, (g.step he o hb).1, i.step _ _ _⟩

theorem TableInv.sysMsg {env : Env} (he : EnvOk env) {s s' : Slave} {nr dlc : Nat} {src : List Byte} {e : Err}
    (hi : TableInv env s.node) (hc : at8 src 0 ≠ 0x20 ∧ at8 src 0 ≠ 0x31)
    (h : Slave.sysMsg env s nr dlc src = some (s', e)) : TableInv env s'.node := by
  by_cases ht : tableCmd (at8 src 0)
  · have hsa : ∀ st, TableInv env (sysSilentAwake env s src nr st).1.node := by
      intro st
      unfold sysSilentAwake
      split
      · split
        · next tp _ =>
          split
          · exact hi.step he (o := .silentAwake tp st) trivial
          · exact hi
        · exact hi
      · exact hi
    have key : ∀ (st : Nat), (if nr = 1 then some (s, E.notAllowedBroadcast) else some (sysSilentAwake env s src nr st)) = some (s', e) →
        TableInv env s'.node := by
      intro st hs
      split at hs
      · have := congrArg Prod.fst (Option.some.inj hs); simp only at this; rw [← this]; exact hi
      · have := congrArg Prod.fst (Option.some.inj hs); simp only at this; rw [← this]; exact hsa st
    have triv : ∀ {y : Err}, some (s, y) = some (s', e) → TableInv env s'.node := by
      intro y h
      have := congrArg Prod.fst (Option.some.inj h); simp only at this; rw [← this]; exact hi
    unfold Slave.sysMsg at h
    split at h
    · exact triv h
    simp only at h
    generalize (if nr = 1 then none else findNr env s.node nr) = dst at h
    split at h
    · exact triv h
    split at h
    · exact triv h
    rcases ht with ht | ht | ht | ht
    · exact absurd ht hc.1
    · rw [ht] at h; exact key 0 h
    · rw [ht] at h; exact key 1 h
    · exact absurd ht hc.2
  · exact hi.light ((sysMsg_keeps h).2.1 ht)

theorem TableInv.slaveStep {env : Env} (he : EnvOk env) {s s' : Slave} {i : In} (hq : ReqInv s)
    (hi : TableInv env s.node) (hb : BasicIn env i) (h : Slave.step env s i = some s') : TableInv env s'.node := by
  cases i with
  | frame now obj dlc id data =>
    have h' : handlerRx env s now obj dlc id data = some s' := h
    rw [handlerRx_eq] at h'
    have d := dataPart_keeps env s obj dlc id data
    have hd : ReqInv (dataPart env s obj dlc id data) := by
      obtain ⟨-, -, -, -, -, c, hc, -⟩ := d
      exact hq.congr (by rw [hc]) (by rw [hc]) (by rw [hc])
    have h1 := hi.light d.1
    generalize dataPart env s obj dlc id data = s1 at *
    have hr : ∀ s2, reqPart env s1 now obj dlc = some s2 → TableInv env s2.node := by
      intro s2 h2
      unfold reqPart at h2
      split at h2
      · exact h1.light (hd.request h2).2.2.2
      · injection h2 with h2; rw [← h2]; exact h1
    split at h'
    · next ho =>
      simp only [Option.bind_eq_some_iff] at h'
      obtain ⟨s2, h2, h3⟩ := h'
      simp only [sysPart, Option.map_eq_some_iff] at h3
      obtain ⟨⟨r, e⟩, h4, h5⟩ := h3
      subst h5
      exact ((hr s2 h2).sysMsg he (hb ho) h4).light (.report ..)
    · exact hr s' h'
  | trigger now =>
    injection h with h; subst h
    obtain ⟨p, hp⟩ := trigger_eq env s now
    rw [hp]; exact hi
  | getPeriode => injection h with h; subst h; exact hi
  | setCycle t =>
    injection h with h; subst h
    unfold setCycle; split <;> exact hi
  | validCb typ nr f =>
    injection h with h; subst h
    rcases setModCb_keeps env s typ nr (fun v tp => { v with validCb := upd v.validCb tp f }) with e | ⟨tp, e⟩ <;> rw [e] <;>
      exact hi
  | invalidCb typ nr f =>
    injection h with h; subst h
    rcases setModCb_keeps env s typ nr (fun v tp => { v with invalidCb := upd v.invalidCb tp f }) with e | ⟨tp, e⟩ <;> rw [e] <;>
      exact hi
  | reqCb typ nr f =>
    injection h with h; subst h
    rcases setModCb_keeps env s typ nr (fun v tp => { v with reqCb := upd v.reqCb tp f }) with e | ⟨tp, e⟩ <;> rw [e] <;>
      exact hi
  | timeCb f =>
    injection h with h; subst h
    unfold setTimeCb; split <;> exact hi
  | resetCb f =>
    injection h with h; subst h
    unfold setResetCb; split <;> exact hi
  | init baud => exact absurd hb id
  | table o => injection h with h; subst h; exact hi.step he hb
  | setMode m => injection h with h; subst h; exact hi
  | setBaud b => injection h with h; subst h; exact hi
  | allCb f => injection h with h; subst h; exact hi
  | firstCb f => injection h with h; subst h; exact hi
  | firstStatusCb f => injection h with h; subst h; exact hi

theorem init_ok {env : Env} {s : Slave} {baud : Nat} (h : (Slave.init env s baud).2 = E.ok) :
    (s.node.init env).2 = E.ok ∧ (Slave.init env s baud).1.node = (s.node.init env).1 ∧
    (Slave.init env s baud).1.sync = syncInit env s.sync ∧ (Slave.init env s baud).1.sys = sysInit env s.sys ∧
    (Slave.init env s baud).1.link = { s.link with startup := baud } := by
  unfold Slave.init at h ⊢
  simp only at h ⊢
  by_cases ho : (s.node.init env).2 = E.ok
  · rw [if_pos ho]; exact ⟨ho, rfl, rfl, rfl, rfl⟩
  · rw [if_neg ho] at h; exact absurd h ho

theorem SReach.ind {env : Env} {s : Slave} (h : SReach env s) (P : Slave → Prop)
    (h0 : ∀ mem baud, (Slave.init env (Slave.boot mem) baud).2 = E.ok → P (Slave.init env (Slave.boot mem) baud).1)
    (h1 : ∀ s s' i, BasicIn env i → P s → Slave.step env s i = some s' → P s') : P s := by
  obtain ⟨mem, baud, is, hok, hb, hr⟩ := h
  have := h0 mem baud hok
  generalize (Slave.init env (Slave.boot mem) baud).1 = s0 at *
  induction is generalizing s0 with
  | nil => injection hr with hr; rw [← hr]; exact this
  | cons i is ih =>
    simp only [run, Option.bind_eq_some_iff] at hr
    obtain ⟨s1, e1, e2⟩ := hr
    exact ih (fun x hx => hb x (by simp [hx])) s1 e2 (h1 s0 s1 i (hb i (by simp)) this e1)

theorem SReach.inv {env : Env} (he : EnvOk env) {s : Slave} (h : SReach env s) : ReqInv s ∧ TableInv env s.node := by
  refine h.ind (fun s => ReqInv s ∧ TableInv env s.node) ?_ ?_
  · intro mem baud hok
    obtain ⟨a, b, c, -, -⟩ := init_ok hok
    refine ⟨⟨by rw [c]; rfl, by rw [c]; exact Or.inl ⟨rfl, rfl⟩⟩, ?_⟩
    rw [b]
    exact ⟨_, Good.init he mem a, by constructor <;> simp [Table.empty]⟩
  · intro s s' i hb hp hs
    exact ⟨hp.1.step hs, hp.2.slaveStep he hp.1 hb hs⟩

theorem SReach.step {env : Env} {s s' : Slave} (h : SReach env s) {i : In} (hb : BasicIn env i)
    (hs : Slave.step env s i = some s') : SReach env s' := by
  obtain ⟨mem, baud, is, hok, hbs, hr⟩ := h
  refine ⟨mem, baud, is ++ [i], hok, ?_, ?_⟩
  · intro x hx
    rcases List.mem_append.1 hx with hx | hx
    · exact hbs x hx
    · simp only [List.mem_singleton] at hx; rw [hx]; exact hb
  · rw [run_append, hr]
    simp [run, hs]

theorem SReach.run {env : Env} (is : List In) : ∀ {s s' : Slave}, SReach env s → (∀ i ∈ is, BasicIn env i) →
    Slave.run env s is = some s' → SReach env s' := by
  induction is with
  | nil => intro s s' h _ hr; injection hr with hr; rw [← hr]; exact h
  | cons i is ih =>
    intro s s' h hb hr
    simp only [Slave.run, Option.bind_eq_some_iff] at hr
    obtain ⟨s1, e1, e2⟩ := hr
    exact ih (h.step (hb i (by simp)) e1) (fun x hx => hb x (by simp [hx])) e2

theorem TableInv.nrMod {env : Env} {n : Node} (h : TableInv env n) : n.nrMod ≤ env.maxMod := by
  obtain ⟨t, g, -⟩ := h
  exact Nat.le_trans g.nrMod g.sim.len

theorem TableInv.process {env : Env} {n : Node} (h : TableInv env n) : ∃ n', n.sendProcessData env = some n' := by
  obtain ⟨t, g, -⟩ := h
  exact ⟨_, Good.process g.sim⟩

end Slave
end LiCan
