import Verif.Lemmas.NodeSim
import Verif.Lemmas.NodeFree
/-! # The invariant of all histories of registrations and silent/awake/critical/active changes -/
namespace LiCan
open Spec
namespace Node

/-- number of receive objects that may have message objects, per row -/
def rxBd (t : Table) (n : Node) : Nat → Nat := fun r => if r < t.mods.length then (n.rows r).rxObj else 0

/-- Assumed build configuration: at most eight modules (the library's limit), between 11 and 32
message objects (the highest fixed object is 10, the masks have 32 bits). -/
structure EnvOk (env : Env) : Prop where
  m8 : env.maxMod ≤ 8
  o32 : env.nObj ≤ 32
  o10 : 10 < env.nObj

structure Good (env : Env) (n : Node) (t : Table) : Prop where
  sim : Sim env n t
  hw : HwInv env (rxBd t n) (4 * t.mods.length) n
  nrMod : n.nrMod ≤ t.mods.length

/-- was a registration (if the call is one) completed? -/
def regOk (env : Env) (n : Node) : Op → Bool
  | .add tpl nr rx tx => decide (regErr env n tpl nr rx tx = E.ok)
  | _ => true

theorem Good.of_same {env : Env} {n n' : Node} {t t' : Table} (h : Good env n t) (hs : Sim env n' t')
    (s : SameHw n n') (hl : t'.mods.length = t.mods.length) : Good env n' t' := by
  refine ⟨hs, ?_, by rw [s.nrMod, hl]; exact h.nrMod⟩
  have h2 := h.hw.same s
  rw [hl]
  refine h2.congr ?_ (Nat.le_refl _) rfl rfl rfl rfl (fun _ _ => ⟨rfl, rfl, rfl⟩)
  intro i
  simp only [rxBd, hl, (s.fields i).2.2.1]
  exact Nat.le_refl _

/-- what each call keeps -/
structure Kept (env : Env) (n n' : Node) (len : Nat) : Prop where
  keeps : KeepsF env n n'
  mono : Mono n n'
  core : ∀ x < len, core (n'.rows x) = core (n.rows x)
  conf : ∀ x < len, Configured n x → Configured n' x

theorem Kept.of_same {env : Env} {n n' : Node} {len : Nat} (s : SameHw n n') : Kept env n n' len :=
  ⟨fun o ho => by rw [s.hw]; exact ⟨ho, fun _ => rfl⟩, .of_same s, fun x _ => s.core x,
   fun x _ hx => hx.congr s⟩

theorem SimQ.process {env : Env} {n : Node} {t : Table} (h : SimQ Q env n t) :
    SimQ Q env ((sendProcessData env n).getD n) t := by
  cases hx : sendProcessData env n with
  | none => exact h
  | some n' =>
    have := sendRun_ind env (fun x => x.rows = n.rows ∧ x.silent = n.silent ∧ x.tx = n.tx)
      (fun x tp obj buf hx => by
        obtain ⟨q, l, k, u, e⟩ := sendOne_eq env x tp obj buf
        rw [e]; exact hx) 32 _ ⟨rfl, rfl, rfl⟩ n' hx
    exact h.congr this.1 this.2.1 this.2.2

theorem step_length {maxMod : Nat} {ok : Bool} {t : Table} {op : Op}
    (h : ∀ tpl nr rx tx, op ≠ .add tpl nr rx tx) :
    (t.step maxMod ok op).1.mods.length = t.mods.length := by
  cases op <;> simp only [Table.step]
  · exact absurd rfl (h _ _ _ _)
  all_goals (repeat' split) <;> simp [switch_length]

theorem setActive_sameHw (env : Env) (n : Node) (typ : List Byte) : SameHw n (setActive env n typ).1 := by
  unfold setActive; split
  · exact syncOn_sameHw ..
  · exact .refl n
theorem setCritical_sameHw (env : Env) (n : Node) (typ : List Byte) :
    SameHw n (setCritical env n typ).1 := by
  unfold setCritical; split
  · exact syncOff_sameHw ..
  · exact .refl n
theorem setSilentAwakeBy_sameHw (env : Env) (n : Node) (typ : List Byte) (nr st : Nat) :
    SameHw n (setSilentAwakeBy env n typ nr st).1 := by
  unfold setSilentAwakeBy; split
  · exact setSilentAwake_sameHw ..
  · exact .refl n

/-- registration -/
theorem Good.add {env : Env} {n : Node} {t : Table} (h : Good env n t) (he : EnvOk env)
    (tpl : Row) (nr : Nat) (rx tx : Nat → Nat) (hb : Basic (.add tpl nr rx tx)) :
    let ok := decide (regErr env n tpl nr rx tx = E.ok)
    let r := addModule env n tpl nr rx tx
    Good env r.1 (t.step env.maxMod ok (.add tpl nr rx tx)).1 ∧
    r.2 = (t.step env.maxMod ok (.add tpl nr rx tx)).2 ∧
    Kept env n r.1 t.mods.length ∧
    (t.mods.length < env.maxMod → ok = true → Configured r.1 t.mods.length) := by
  intro ok r
  have hsim := h.sim.add he.m8 tpl nr rx tx hb
  simp only at hsim
  have hok : ok = decide (regErr env n tpl nr rx tx = E.ok) := rfl
  have hr : r = addModule env n tpl nr rx tx := rfl
  rw [← hok, ← hr] at hsim
  clear_value ok r
  obtain ⟨hne, ht4, hr4⟩ := hb
  by_cases hl : t.mods.length = env.maxMod
  · have hrn : r.1 = n := by rw [hr]; simp only [addModule, h.sim.freeRow, hl, if_true]
    have hst : (t.step env.maxMod ok (.add tpl nr rx tx)).1 = t := by simp [Table.step, hl]
    refine ⟨?_, hsim.2, ?_, fun hlt => by omega⟩
    · rw [hrn, hst]; exact h
    · rw [hrn]; exact .of_same (.refl n)
  · have hlt : t.mods.length < env.maxMod := by have := h.sim.len; omega
    -- both branches run `can_config_set_module` on the first free row
    have key : ∃ k, r.1 = report env (setModule env n t.mods.length tpl k rx tx).1
          (setModule env n t.mods.length tpl k rx tx).2 ∧
        regErr env n tpl nr rx tx = (setModule env n t.mods.length tpl k rx tx).2 := by
      rw [hr]
      simp only [addModule, regErr, h.sim.freeRow, hl, if_false]
      split
      · exact ⟨125 + t.mods.length, rfl, rfl⟩
      · exact ⟨nr, rfl, rfl⟩
    obtain ⟨k, hk, hk2⟩ := key
    have hm := h.hw.setModule (i := t.mods.length) (nr := k) (tpl := tpl) (rx := rx) (tx := tx)
      he.o32 he.o10 hlt (by simp [rxBd]) ht4 (by omega)
    simp only at hm
    obtain ⟨q1, q2, q3, q4, q5, q6⟩ := hm
    have s := report_sameHw env (setModule env n t.mods.length tpl k rx tx).1
      (setModule env n t.mods.length tpl k rx tx).2
    rw [← hk] at s
    have hlen : (t.step env.maxMod ok (.add tpl nr rx tx)).1.mods.length = t.mods.length + 1 := by
      simp [Table.step, hl]
    have hcore : ∀ x < t.mods.length, core (r.1.rows x) = core (n.rows x) := by
      intro x hx; rw [s.core x]; exact q5 x (by omega)
    have hkeep : KeepsF env n r.1 := by intro o ho; rw [s.hw]; exact q2 o ho
    have hmono : Mono n r.1 := q4.trans (.of_same s)
    refine ⟨⟨hsim.1, ?_, ?_⟩, hsim.2, ⟨hkeep, hmono, hcore, ?_⟩, ?_⟩
    · have q1' := q1.same s
      rw [hlen]
      refine q1'.congr ?_ (by omega) rfl rfl rfl rfl (fun _ _ => ⟨rfl, rfl, rfl⟩)
      intro x
      simp only [rxBd, bdAt, hlen, upd]
      by_cases hx : x = t.mods.length
      · subst hx
        simp only [if_true, Nat.lt_add_one]
        -- the new row has the template's receive objects
        have hrow : (r.1.rows t.mods.length).rxObj = tpl.rxObj := by
          rw [(s.fields _).2.2.1]
          exact setModule_rxObj env n t.mods.length tpl k rx tx hlt ht4
        omega
      · simp only [hx, if_false]
        by_cases hx2 : x < t.mods.length
        · have hc := hcore x hx2
          simp only [Node.core, Row.mk.injEq] at hc
          rw [if_pos hx2, if_pos (by omega), hc.2.2.1]
          exact Nat.le_refl _
        · rw [if_neg hx2]; omega
    · rw [s.nrMod, hlen]; have := h.nrMod; omega
    · intro x hx hcx
      exact (hcx.mono h.hw q2 q4 (q5 x (by omega))).congr s
    · intro _ hokt
      rw [hok] at hokt
      have : (setModule env n t.mods.length tpl k rx tx).2 = E.ok := by
        rw [← hk2]; simpa using hokt
      exact (q6 this).congr s

theorem Good.step {env : Env} {n : Node} {t : Table} (h : Good env n t) (he : EnvOk env)
    (op : Op) (hb : Basic op) :
    Good env (Node.step env n op).1 (t.step env.maxMod (regOk env n op) op).1 ∧
    (Node.step env n op).2 = (t.step env.maxMod (regOk env n op) op).2 ∧
    Kept env n (Node.step env n op).1 t.mods.length := by
  cases op with
  | add tpl nr rx tx =>
    have := h.add he tpl nr rx tx hb
    exact ⟨this.1, this.2.1, this.2.2.1⟩
  | silentAwake tp st =>
    have := h.sim.silentAwake he.m8 tp st (regOk env n (.silentAwake tp st))
    have s := setSilentAwake_sameHw env n tp st
    exact ⟨h.of_same this.1 s (step_length (by simp)), this.2, .of_same s⟩
  | silentAwakeBy typ nr st =>
    have := h.sim.silentAwakeBy he.m8 typ nr st (regOk env n (.silentAwakeBy typ nr st)) hb
    have s := setSilentAwakeBy_sameHw env n typ nr st
    exact ⟨h.of_same this.1 s (step_length (by simp)), this.2, .of_same s⟩
  | setActive typ =>
    have := h.sim.active he.m8 typ (regOk env n (.setActive typ)) hb
    have s := setActive_sameHw env n typ
    exact ⟨h.of_same this.1 s (step_length (by simp)), this.2, .of_same s⟩
  | setCritical typ =>
    have := h.sim.critical he.m8 typ (regOk env n (.setCritical typ)) hb
    have s := setCritical_sameHw env n typ
    exact ⟨h.of_same this.1 s (step_length (by simp)), this.2, .of_same s⟩
  | process =>
    have s := process_sameHw env n
    exact ⟨h.of_same h.sim.process s rfl, rfl, .of_same s⟩
  | changeNr | changeModuleNr | changeTypeAdd | changeType => exact absurd hb (by simp [Basic])

/-- The specification following a history of the code (told which registrations completed). -/
def specRun (env : Env) : Node → Table → List Op → Table
  | _, t, [] => t
  | n, t, o :: os => specRun env (Node.step env n o).1 (t.step env.maxMod (regOk env n o) o).1 os

theorem Good.run {env : Env} (he : EnvOk env) (ops : List Op) (hb : ∀ o ∈ ops, Basic o) :
    ∀ {n : Node} {t : Table}, Good env n t → Good env (Node.run env n ops) (specRun env n t ops) := by
  induction ops with
  | nil => exact fun h => h
  | cons o os ih =>
    intro n t h
    have hs := h.step he o (hb o (by simp))
    exact ih (fun x hx => hb x (by simp [hx])) hs.1

theorem HwInv.ofInit {env : Env} {n : Node} (h1 : ∀ o, Fixed env o → n.hw.used o = true)
    (h2 : n.slots = []) (h3 : n.nrMod = 0) (h4 : n.ctrlObj = fun _ => 0) (h5 : n.hw.isrRx = 0)
    (h6 : n.hw.ctrlMask = 0) : HwInv env (fun _ => 0) 0 n := by
  have hc : n.ctrls = [] := by simp [ctrls, h3]
  have ha : n.assigned = [] := by simp [assigned, h2, hc]
  refine ⟨h1, by simp [ha], by simp [ha], by simp [h2], by simp [h2, h5], by simp [h2], by simp [h4],
    by simp [h6]⟩

theorem define_svc (env : Env) (n : Node) (o : Nat) (d : ObjDef) (ho : o < env.nObj)
    (h1 : d.svc ≠ .rx true) (h2 : d.svc ≠ .asyncCtrlRx) :
    (define env n o d).1.hw.isrRx = n.hw.isrRx ∧ (define env n o d).1.hw.ctrlMask = n.hw.ctrlMask ∧
    (define env n o d).1.hw.used = upd n.hw.used o true ∧
    (∃ hw, (define env n o d).1 = { n with hw := hw }) := by
  rcases define_cases env n o d ho with ⟨_, e⟩ | ⟨_, e⟩ <;> rw [e] <;> simp only [h1, h2, if_false, true_and]
  · exact ⟨_, rfl⟩
  · exact ⟨_, rfl⟩

/-- state right after a successful initialisation -/
theorem init_state (env : Env) (he : EnvOk env) (n0 : Node) (hok : (init env n0).2 = E.ok) :
    (init env n0).1.slots = n0.slots ∧ (init env n0).1.nrMod = 0 ∧
    (init env n0).1.ctrlObj = n0.ctrlObj ∧ (init env n0).1.hw.isrRx = n0.hw.isrRx ∧
    (init env n0).1.hw.ctrlMask = n0.hw.ctrlMask ∧ (init env n0).1.tx = n0.tx ∧
    (init env n0).1.silent = n0.silent ∧ (init env n0).1.chg = n0.chg ∧
    (∀ o < env.nObj, (init env n0).1.hw.used o = true ↔ Fixed env o) ∧
    (∀ i < env.maxMod, (init env n0).1.rows i = { n0.rows i with typ := [] }) ∧
    (∀ i, env.maxMod ≤ i → (init env n0).1.rows i = n0.rows i) ∧
    (init env n0).1.errq = n0.errq ∧ (init env n0).1.log = n0.log ∧ (init env n0).1.ub = n0.ub ∧
    (init env n0).1.mem = n0.mem := by
  have ten := he.o10
  generalize hr : init env n0 = r at hok
  simp only [init] at hr
  generalize hm : ({ n0 with
    nrMod := 0
    rows := fun i => if i < env.maxMod then { n0.rows i with typ := [] } else n0.rows i
    hw := { n0.hw with
      used := fun i => if i < env.nObj then false else n0.hw.used i
      defs := fun i => if i < env.nObj then none else n0.hw.defs i } } : Node) = m at hr
  -- one definition
  have st : ∀ (x : Node) (q : Node × Err) (os : List Nat) (o : Nat) (d : ObjDef), o < env.nObj →
      d.svc ≠ .rx true → d.svc ≠ .asyncCtrlRx →
      (q.2 = E.ok → ∃ hw, q.1 = { m with hw := hw } ∧ hw.isrRx = m.hw.isrRx ∧ hw.ctrlMask = m.hw.ctrlMask ∧
        (∀ y < env.nObj, hw.used y = true ↔ y ∈ os)) →
      ((thenOk q fun n => define env n o d).2 = E.ok → ∃ hw, (thenOk q fun n => define env n o d).1 = { m with hw := hw } ∧
        hw.isrRx = m.hw.isrRx ∧ hw.ctrlMask = m.hw.ctrlMask ∧
        (∀ y < env.nObj, hw.used y = true ↔ y ∈ o :: os)) := by
    intro x q os o d ho d1 d2 hq hok
    by_cases hqok : q.2 = E.ok
    · rw [thenOk, if_pos hqok] at hok ⊢
      obtain ⟨hw, e, e1, e2, e3⟩ := hq hqok
      obtain ⟨f1, f2, f3, hw', f4⟩ := define_svc env q.1 o d ho d1 d2
      refine ⟨hw', by rw [f4, e], ?_, ?_, ?_⟩
      · rw [f4] at f1; simp only at f1; rw [f1, e]; exact e1
      · rw [f4] at f2; simp only at f2; rw [f2, e]; exact e2
      · rw [f4] at f3; simp only at f3
        intro y hy
        rw [f3, e]
        simp only [upd, List.mem_cons]
        split
        · next h => simp [h]
        · next h => simp [h, e3 y hy]
    · rw [thenOk, if_neg hqok] at hok
      exact absurd hok hqok
  have s0 : ((m, E.ok) : Node × Err).2 = E.ok → ∃ hw, ((m, E.ok) : Node × Err).1 = { m with hw := hw } ∧
      hw.isrRx = m.hw.isrRx ∧ hw.ctrlMask = m.hw.ctrlMask ∧ (∀ y < env.nObj, hw.used y = true ↔ y ∈ ([] : List Nat)) := by
    intro _
    refine ⟨m.hw, rfl, rfl, rfl, ?_⟩
    intro y hy; rw [← hm]; simp [hy]
  have s1 := st m _ _ 0 ⟨0x001, 0x7FF#16, 1, .rx false⟩ (by omega) (by simp) (by simp) s0
  rw [thenOk_ok] at s1
  have s2 := st m _ _ 2 ⟨0x002, 0x7FF#16, 8, .rx false⟩ (by omega) (by simp) (by simp) s1
  have fin : ∃ hw, r.1 = { m with hw := hw } ∧
        hw.isrRx = m.hw.isrRx ∧ hw.ctrlMask = m.hw.ctrlMask ∧
        (∀ y < env.nObj, hw.used y = true ↔ Fixed env y) := by
    by_cases hs : env.sysObj2 = true
    · have s3 := st m _ _ 3 ⟨0x002, 0x7FF#16, 8, .rx false⟩ (by omega) (by simp) (by simp) s2
      have s4 := st m _ _ 6 ⟨0x600, 0x7FF#16, 8, .asyncRx⟩ (by omega) (by simp) (by simp) s3
      have s5 := st m _ _ 10 ⟨0, 0x7FF#16, 0, .tx⟩ (by omega) (by simp) (by simp) s4
      simp only [hs, if_true] at hr
      rw [hr] at s5
      obtain ⟨hw, e, e1, e2, e3⟩ := s5 hok
      refine ⟨hw, e, e1, e2, fun y hy => ?_⟩
      rw [e3 y hy]; simp only [List.mem_cons, List.not_mem_nil, or_false, Fixed, hs, and_true]
      omega
    · simp only [hs, Bool.false_eq_true, if_false] at hr
      have hid : ∀ q : Node × Err, thenOk q (fun n => (n, E.ok)) = q := by
        intro q; unfold thenOk; split
        · next h => exact Prod.ext rfl h.symm
        · rfl
      rw [hid] at hr
      have s4 := st m _ _ 6 ⟨0x600, 0x7FF#16, 8, .asyncRx⟩ (by omega) (by simp) (by simp) s2
      have s5 := st m _ _ 10 ⟨0, 0x7FF#16, 0, .tx⟩ (by omega) (by simp) (by simp) s4
      rw [hr] at s5
      obtain ⟨hw, e, e1, e2, e3⟩ := s5 hok
      refine ⟨hw, e, e1, e2, fun y hy => ?_⟩
      rw [e3 y hy]; simp only [List.mem_cons, List.not_mem_nil, or_false, Fixed, hs, Bool.false_eq_true, and_false, false_or]
      omega
  obtain ⟨hw, e, e1, e2, e3⟩ := fin
  rw [e]
  refine ⟨by rw [← hm], by rw [← hm], by rw [← hm], by rw [e1, ← hm], by rw [e2, ← hm], by rw [← hm],
    by rw [← hm], by rw [← hm], e3, ?_, ?_, by rw [← hm], by rw [← hm], by rw [← hm], by rw [← hm]⟩
  · intro i hi; rw [← hm]; simp [hi]
  · intro i hi; rw [← hm]; simp; omega

/-- a freshly initialised node is good -/
theorem Good.init {env : Env} (he : EnvOk env) (mem : Nat → List Byte)
    (hok : (Node.init env (boot mem)).2 = E.ok) :
    Good env (Node.init env (boot mem)).1 Table.empty := by
  obtain ⟨a1, a2, a3, a4, a5, a6, a7, _, a8, a9, a10, _⟩ := init_state env he (boot mem) hok
  have hrow : ∀ i, ((Node.init env (boot mem)).1.rows i).typ = [] ∧
      ((Node.init env (boot mem)).1.rows i).txObj = 0 ∧ ((Node.init env (boot mem)).1.rows i).rxObj = 0 ∧
      ((Node.init env (boot mem)).1.rows i).rxObjSync = 0 := by
    intro i
    by_cases hi : i < env.maxMod
    · rw [a9 i hi]; simp [boot]
    · rw [a10 i (by omega)]; simp [boot]
  refine ⟨⟨by simp [Table.empty], by rw [a7]; rfl, by simp [Table.empty], fun i _ => hrow i, ?_⟩, ?_, by rw [a2]; omega⟩
  · intro p; rw [a6]; simp [boot, Table.empty]
  · have := HwInv.ofInit (env := env) (n := (Node.init env (boot mem)).1)
      (fun o ho => (a8 o (by have := he.o10; unfold Fixed at ho; omega)).2 ho) a1 a2 a3 (by rw [a4]; rfl) (by rw [a5]; rfl)
    exact this.congr (fun _ => Nat.zero_le _) (Nat.zero_le _) rfl rfl rfl rfl (fun _ _ => ⟨rfl, rfl, rfl⟩)

end Node
end LiCan
