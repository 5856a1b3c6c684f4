import Verif.Lemmas.Cpu2Run
import Verif.Props.AddReport
import Verif.Props.Cpu2
/-!
# How many modules fit into a monitor CPU (property C122)

A message object and an entry of the slot table for every receive *and* transmit object.
-/
namespace LiCan
namespace Cpu2
open Node Slave Spec

/-- C122: unused message objects, and unused entries of the slot table (four for each row) -/
def _root_.LiCan.Spec.unusedObjs (env : Env) (n : Node) : Nat := ((List.range env.nObj).filter fun o => !n.hw.used o).length
def _root_.LiCan.Spec.unusedSlots (env : Env) (n : Node) : Nat := 4 * env.maxMod - n.slots.length

/-- C122: the error of entering `k` data objects where `F` message objects and `R` slots are left -/
def _root_.LiCan.Spec.portErr (k F R : Nat) : Err :=
  if k ≤ F ∧ k ≤ R then 0x0000#16 else if F ≤ R then 0x5023#16 else 0x5028#16

/-- C122: the error of a registration with `k` data objects: one message object more for the control messages -/
def _root_.LiCan.Spec.regError (k F R : Nat) : Err :=
  if k + 1 ≤ F ∧ k ≤ R then 0x0000#16 else if F ≤ R ∨ k ≤ R then 0x5023#16 else 0x5028#16

theorem unusedObjs_eq (env : Env) (n : Node) : unusedObjs env n = freeCnt env n := rfl

/-- several data objects -/
def Ports (env : Env) (k : Nat) (n n' : Node) (e : Err) : Prop :=
  e = portErr k (unusedObjs env n) (unusedSlots env n) ∧
  (e = E.ok → unusedObjs env n' + k = unusedObjs env n ∧ unusedSlots env n' + k = unusedSlots env n) ∧
  n'.nrMod = n.nrMod ∧ n'.silent = n.silent ∧ n'.errq = n.errq

theorem portErr_ok {k F R : Nat} : portErr k F R = E.ok ↔ k ≤ F ∧ k ≤ R := by
  unfold portErr
  constructor
  · intro h
    split at h
    · assumption
    · split at h <;> cases h
  · intro h; rw [if_pos h]

theorem portErr_add {j k F R : Nat} (hj : j ≤ F ∧ j ≤ R) : portErr k (F - j) (R - j) = portErr (j + k) F R := by
  unfold portErr
  have e1 : (k ≤ F - j ∧ k ≤ R - j) ↔ (j + k ≤ F ∧ j + k ≤ R) := by omega
  have e2 : (F - j ≤ R - j) ↔ F ≤ R := by omega
  simp only [e1, e2]

theorem portErr_more {j k F R : Nat} (hj : portErr j F R ≠ E.ok) : portErr (j + k) F R = portErr j F R := by
  have hn : ¬ (j ≤ F ∧ j ≤ R) := fun e => hj (portErr_ok.2 e)
  unfold portErr
  rw [if_neg hn, if_neg (fun e => hn ⟨by omega, by omega⟩)]

theorem Ports.add {env : Env} {j k : Nat} {n n1 n2 : Node} {e1 e2 : Err} (h1 : Ports env j n n1 e1)
    (h2 : e1 = E.ok → Ports env k n1 n2 e2) :
    Ports env (j + k) n (if e1 = E.ok then n2 else n1) (if e1 = E.ok then e2 else e1) := by
  obtain ⟨a1, a2, a3, a4, a5⟩ := h1
  by_cases he : e1 = E.ok
  · rw [if_pos he, if_pos he]
    obtain ⟨b1, b2, b3, b4, b5⟩ := h2 he
    obtain ⟨c1, c2⟩ := a2 he
    have hok := portErr_ok.1 (a1.symm.trans he)
    refine ⟨?_, fun e => ?_, b3.trans a3, b4.trans a4, b5.trans a5⟩
    · rw [b1, ← portErr_add hok]
      congr 1 <;> omega
    · have := b2 e; omega
  · rw [if_neg he, if_neg he]
    refine ⟨?_, fun e => absurd e he, a3, a4, a5⟩
    rw [a1] at he ⊢
    exact (portErr_more he).symm

theorem Ports.zero (env : Env) (n : Node) : Ports env 0 n n E.ok :=
  ⟨by simp [portErr], fun _ => ⟨rfl, rfl⟩, rfl, rfl, rfl⟩

theorem Ports.from {env : Env} {k : Nat} {n n0 n' : Node} {e : Err} (h : Ports env k n n' e) (h1 : n0.hw = n.hw)
    (h2 : n0.slots = n.slots) (h3 : n0.nrMod = n.nrMod) (h4 : n0.silent = n.silent) (h5 : n0.errq = n.errq) : Ports env k n0 n' e := by
  unfold Ports unusedObjs unusedSlots at *
  rw [h1, h2, h3, h4, h5]; exact h

/-- a message object is taken from the pool, programmed and entered -/
theorem port_step {env : Env} (hh : ∀ k, env.hwOk k = true) (n m : Node) (d : ObjDef) (o tp : Nat)
    (hf : n.nextFree env = some o) (h1 : m.hw = n.hw) (h2 : m.slots = n.slots) (h3 : m.nrMod = n.nrMod) (h4 : m.silent = n.silent)
    (h5 : m.errq = n.errq) :
    Ports env 1 n (thenOk (define env m o d) fun n => addSlot env n o tp).1 (thenOk (define env m o d) fun n => addSlot env n o tp).2 := by
  obtain ⟨ho1, ho2⟩ := nextFree_some hf
  have hfree : 1 ≤ unusedObjs env n := by
    rcases Nat.eq_zero_or_pos (unusedObjs env n) with e | e
    · rw [nextFree_zero e] at hf; cases hf
    · exact e
  rw [define_hw hh _ ho1]
  simp only [thenOk, if_true]
  have hcnt := filter_upd_length n.hw.used o env.nObj ho1 ho2
  unfold addSlot
  dsimp only
  by_cases hs : m.slots.length < 4 * env.maxMod
  · rw [if_pos hs]
    refine ⟨?_, fun _ => ⟨?_, ?_⟩, h3, h4, h5⟩
    · exact (portErr_ok.2 ⟨hfree, by unfold unusedSlots; rw [h2] at hs; omega⟩).symm
    · simp only [unusedObjs, defHw, h1]; exact hcnt
    · simp only [unusedSlots, List.length_append, List.length_cons, List.length_nil]; rw [h2] at hs ⊢; omega
  · rw [if_neg hs]
    refine ⟨?_, fun e => absurd e (by simp), h3, h4, h5⟩
    have hz : unusedSlots env n = 0 := by unfold unusedSlots; rw [h2] at hs; omega
    simp only [portErr, hz]
    rw [if_neg (by omega), if_neg (by omega)]

theorem no_port {env : Env} (n m : Node) (hf : n.nextFree env = none) (h3 : m.nrMod = n.nrMod) (h4 : m.silent = n.silent)
    (h5 : m.errq = n.errq) : Ports env 1 n m E.noMsgObjFree := by
  have hz : unusedObjs env n = 0 := by
    rcases Nat.eq_zero_or_pos (unusedObjs env n) with e | e
    · exact e
    · obtain ⟨o, ho⟩ := nextFree_of_pos e; rw [hf] at ho; cases ho
  refine ⟨?_, fun e => absurd e (by simp), h3, h4, h5⟩
  simp only [portErr, hz]
  rw [if_neg (by omega), if_pos (by omega)]

theorem setTx1_ports {env : Env} (hh : ∀ k, env.hwOk k = true) (tp nr i : Nat) (c : Cpu2) :
    Ports env 1 c.s.node (setTx1 env tp nr i c).1.s.node (setTx1 env tp nr i c).2 ∧
    ((setTx1 env tp nr i c).1.s.node.rows tp).rxObj = (c.s.node.rows tp).rxObj := by
  unfold setTx1
  extract_lets n
  have n1 : n.hw = c.s.node.hw := rfl
  have n2 : n.slots = c.s.node.slots := rfl
  have n3 : n.nrMod = c.s.node.nrMod := rfl
  have n4 : n.silent = c.s.node.silent := rfl
  have n5 : n.errq = c.s.node.errq := rfl
  have n6 : (n.rows tp).rxObj = (c.s.node.rows tp).rxObj := by
    show (upd c.s.node.rows tp _ tp).rxObj = _
    rw [upd_same]
  clear_value n
  split
  · next hf => exact ⟨(no_port n n hf rfl rfl rfl).from n1.symm n2.symm n3.symm n4.symm n5.symm, n6⟩
  · next o hf =>
    refine ⟨(port_step hh n n _ o tp hf rfl rfl rfl rfl rfl).from n1.symm n2.symm n3.symm n4.symm n5.symm, ?_⟩
    obtain ⟨ho1, ho2⟩ := nextFree_some hf
    rw [define_hw hh _ ho1]
    simp only [thenOk, if_true]
    unfold addSlot
    split <;> exact n6

theorem setRx1_ports {env : Env} (hh : ∀ k, env.hwOk k = true) (tp nr i : Nat) (n : Node) :
    Ports env 1 n (setRx1 env tp nr i n).1 (setRx1 env tp nr i n).2 := by
  unfold setRx1
  extract_lets n'
  have n1 : n'.hw = n.hw := rfl
  have n2 : n'.slots = n.slots := rfl
  have n3 : n'.nrMod = n.nrMod := rfl
  have n4 : n'.silent = n.silent := rfl
  have n5 : n'.errq = n.errq := rfl
  clear_value n'
  split
  · next hf => exact (no_port n' n' hf rfl rfl rfl).from n1.symm n2.symm n3.symm n4.symm n5.symm
  · next o hf =>
    exact (port_step hh n' (n'.setRow tp _) _ o tp hf rfl rfl rfl rfl rfl).from n1.symm n2.symm n3.symm n4.symm n5.symm

theorem loop_ports {env : Env} {f : Nat → Cpu2 → Cpu2 × Err} (tp : Nat)
    (hf : ∀ i c, Ports env 1 c.s.node (f i c).1.s.node (f i c).2 ∧ ((f i c).1.s.node.rows tp).rxObj = (c.s.node.rows tp).rxObj) :
    ∀ (is : List Nat) (c : Cpu2), Ports env is.length c.s.node (loop f is c).1.s.node (loop f is c).2 ∧
      ((loop f is c).1.s.node.rows tp).rxObj = (c.s.node.rows tp).rxObj
  | [], c => ⟨.zero env _, rfl⟩
  | i :: is, c => by
    have k := (hf i c).1.add fun _ => (loop_ports tp hf is (f i c).1).1
    have k2 := (loop_ports tp hf is (f i c).1).2
    have k3 := (hf i c).2
    rw [List.length_cons, Nat.add_comm]
    unfold loop andThen
    split
    · next e => rw [if_pos e, if_pos e] at k; exact ⟨k, k2.trans k3⟩
    · next e => rw [if_neg e, if_neg e] at k; exact ⟨k, k3⟩

theorem forErr_ports {env : Env} {f : Nat → Node → Node × Err} (hf : ∀ i n, Ports env 1 n (f i n).1 (f i n).2) :
    ∀ (is : List Nat) (n : Node), Ports env is.length n (forErr f is n).1 (forErr f is n).2
  | [], n => .zero env _
  | i :: is, n => by
    have k := (hf i n).add fun _ => forErr_ports hf is (f i n).1
    rw [List.length_cons, Nat.add_comm]
    unfold forErr thenOk
    split
    · next e => rw [if_pos e, if_pos e] at k; exact k
    · next e => rw [if_neg e, if_neg e] at k; exact k

theorem setSilentAwake_errq (env : Env) (c : Cpu2) (tp st : Nat) : (c.setSilentAwake env tp st).1.s.node.errq = c.s.node.errq := by
  unfold setSilentAwake
  split
  · dsimp only
    split
    · show (Node.syncOff env _ tp).errq = _
      obtain ⟨m, u, e⟩ := syncOff_eq env { c.s.node with silent := upd c.s.node.silent tp st, log := .silentCb tp (c.s.node.rows tp).nr st :: c.s.node.log } tp
      exact (congrArg Node.errq e).trans rfl
    · split
      · show (Node.syncOn _ tp).errq = _
        rw [syncOn_eq]; rfl
      · rfl
  · rfl

/-- the end of a registration fails only without a free message object -/
theorem tail_err {env : Env} (hh : ∀ k, env.hwOk k = true) (h10 : 10 < env.nObj) (tp nr : Nat) (htp : tp < env.maxMod) (c : Cpu2)
    (hm : c.s.node.nrMod < env.maxMod) (hst : c.s.node.silent tp = 0 ∨ c.s.node.silent tp = 1) :
    (tail env tp nr c).2 = (if 1 ≤ unusedObjs env c.s.node then E.ok else E.noMsgObjFree) ∧
    (tail env tp nr c).1.s.node.errq = c.s.node.errq := by
  unfold tail
  dsimp only
  generalize (List.range (tp + 1)).map (fun i => (c.s.node.rows i).nr) = nrs
  suffices h : (c.finish env tp c.s.node.nrMod nr nrs).2 = (if 1 ≤ unusedObjs env c.s.node then E.ok else E.noMsgObjFree) ∧
      (c.finish env tp c.s.node.nrMod nr nrs).1.s.node.errq = c.s.node.errq by
    generalize c.finish env tp c.s.node.nrMod nr nrs = r at h ⊢
    exact h
  unfold finish
  dsimp only
  have hd : c.onNode (defineCtrl env · c.s.node.nrMod nr) =
      (c.setNode (defineCtrl env c.s.node c.s.node.nrMod nr).1, (defineCtrl env c.s.node c.s.node.nrMod nr).2) := rfl
  rw [hd]
  unfold defineCtrl
  rw [if_neg (by omega)]
  rcases hf : c.s.node.nextFree env with _ | o
  · have hz : unusedObjs env c.s.node = 0 := by
      rcases Nat.eq_zero_or_pos (unusedObjs env c.s.node) with e | e
      · exact e
      · obtain ⟨o, ho⟩ := nextFree_of_pos e; rw [hf] at ho; cases ho
    rw [if_neg (by omega)]
    dsimp only
    simp [andThen]
    rfl
  · have hp : 1 ≤ unusedObjs env c.s.node := by
      rcases Nat.eq_zero_or_pos (unusedObjs env c.s.node) with e | e
      · rw [nextFree_zero e] at hf; cases hf
      · exact e
    rw [if_pos hp]
    dsimp only
    obtain ⟨ho1, -⟩ := nextFree_some hf
    rw [define_hw hh _ ho1]
    have stepD : ∀ (x : Cpu2) (q : Nat) (d : ObjDef), q < env.nObj →
        x.onNode (define env · q d) = (x.setNode { x.s.node with hw := defHw x.s.node.hw q d }, E.ok) := by
      intro x q d hq
      show (x.setNode (define env x.s.node q d).1, (define env x.s.node q d).2) = _
      rw [define_hw hh _ hq]
    have nice : ∀ (x : Cpu2 × Err) (q : Nat) (d : ObjDef), q < env.nObj → x.2 = E.ok →
        (andThen x (onNode (define env · q d))).2 = E.ok ∧
        (andThen x (onNode (define env · q d))).1.s.node.errq = x.1.s.node.errq ∧
        (andThen x (onNode (define env · q d))).1.s.node.silent = x.1.s.node.silent := by
      intro x q d hq hx
      unfold andThen
      rw [if_pos hx, stepD _ _ _ hq]
      exact ⟨rfl, rfl, rfl⟩
    have key : ∀ x0 : Cpu2 × Err, x0.2 = E.ok ∧ x0.1.s.node.errq = c.s.node.errq ∧ x0.1.s.node.silent = c.s.node.silent →
        (andThen (andThen (andThen (andThen x0 (onNode (define env · 6 ⟨0x602, acceptMask nrs, 8, .asyncRx⟩)))
          (onNode (define env · 2 ⟨0x002, acceptMask nrs, 8, .rx false⟩)))
          fun c => if env.sysObj2 then c.onNode (define env · 3 ⟨0x002, acceptMask nrs, 8, .rx false⟩) else (c, E.ok))
          fun c => setSilentAwake env c tp (c.s.node.silent tp)).2 = E.ok ∧
        (andThen (andThen (andThen (andThen x0 (onNode (define env · 6 ⟨0x602, acceptMask nrs, 8, .asyncRx⟩)))
          (onNode (define env · 2 ⟨0x002, acceptMask nrs, 8, .rx false⟩)))
          fun c => if env.sysObj2 then c.onNode (define env · 3 ⟨0x002, acceptMask nrs, 8, .rx false⟩) else (c, E.ok))
          fun c => setSilentAwake env c tp (c.s.node.silent tp)).1.s.node.errq = c.s.node.errq := by
      intro x0 a0
      obtain ⟨b1, b2, b3⟩ := nice x0 6 ⟨0x602, acceptMask nrs, 8, .asyncRx⟩ (by omega) a0.1
      generalize andThen x0 (onNode (define env · 6 ⟨0x602, acceptMask nrs, 8, .asyncRx⟩)) = x1 at b1 b2 b3 ⊢
      obtain ⟨c1, c2, c3⟩ := nice x1 2 ⟨0x002, acceptMask nrs, 8, .rx false⟩ (by omega) b1
      generalize andThen x1 (onNode (define env · 2 ⟨0x002, acceptMask nrs, 8, .rx false⟩)) = x2 at c1 c2 c3 ⊢
      have d0 : (andThen x2 fun c => if env.sysObj2 then c.onNode (define env · 3 ⟨0x002, acceptMask nrs, 8, .rx false⟩) else (c, E.ok)).2 = E.ok ∧
          (andThen x2 fun c => if env.sysObj2 then c.onNode (define env · 3 ⟨0x002, acceptMask nrs, 8, .rx false⟩) else (c, E.ok)).1.s.node.errq = x2.1.s.node.errq ∧
          (andThen x2 fun c => if env.sysObj2 then c.onNode (define env · 3 ⟨0x002, acceptMask nrs, 8, .rx false⟩) else (c, E.ok)).1.s.node.silent = x2.1.s.node.silent := by
        by_cases hs : env.sysObj2 = true
        · simp only [hs, if_true]
          exact nice x2 3 ⟨0x002, acceptMask nrs, 8, .rx false⟩ (by omega) c1
        · simp only [hs]
          unfold andThen; rw [if_pos c1]; exact ⟨rfl, rfl, rfl⟩
      obtain ⟨d1, d2, d3⟩ := d0
      generalize (andThen x2 fun c => if env.sysObj2 then c.onNode (define env · 3 ⟨0x002, acceptMask nrs, 8, .rx false⟩) else (c, E.ok)) = x3 at d1 d2 d3 ⊢
      have es : x3.1.s.node.silent = c.s.node.silent := by rw [d3, c3, b3, a0.2.2]
      have eq : x3.1.s.node.errq = c.s.node.errq := by rw [d2, c2, b2, a0.2.1]
      unfold andThen
      rw [if_pos d1]
      dsimp only
      rw [setSilentAwake_errq, es, eq]
      refine ⟨?_, rfl⟩
      unfold setSilentAwake
      rw [if_pos htp]
      rcases hst with e | e
      · simp [e]
      · simp [e]
    exact key _ ⟨rfl, rfl, rfl⟩

theorem regError_of_port {k F R : Nat} (h : ¬ (k ≤ F ∧ k ≤ R)) : portErr k F R = regError k F R := by
  unfold portErr regError
  rw [if_neg h, if_neg (c := k + 1 ≤ F ∧ k ≤ R) (fun e => h ⟨by omega, e.2⟩)]
  by_cases hf : F ≤ R
  · rw [if_pos hf, if_pos (.inl hf)]
  · rw [if_neg hf, if_neg (fun e => h (by omega))]

theorem setModule_err {env : Env} (hh : ∀ k, env.hwOk k = true) (h10 : 10 < env.nObj) (c : Cpu2) (tp : Nat) (htp : tp < env.maxMod)
    (tpl : Row) (tx2 : Cpu2Row) (nr : Nat) (rx tx : Nat → Nat) (hm : c.s.node.nrMod < env.maxMod)
    (hst : c.s.node.silent tp = 0 ∨ c.s.node.silent tp = 1) :
    (c.setModule env tp tpl tx2 nr rx tx).2 =
      regError (tpl.txObj + tpl.rxObj) (unusedObjs env c.s.node) (unusedSlots env c.s.node) ∧
    (c.setModule env tp tpl tx2 nr rx tx).1.s.node.errq = c.s.node.errq := by
  rw [setModule_tail]
  generalize effNr tp nr = nr'
  generalize hc1 : (c.setX tp fun _ => tx2).setNode (c.s.node.fillRow tp tpl nr' rx tx) = c1
  have r1 : (c1.s.node.rows tp).txObj = tpl.txObj ∧ (c1.s.node.rows tp).rxObj = tpl.rxObj := by
    rw [← hc1]
    show (upd c.s.node.rows tp _ tp).txObj = _ ∧ (upd c.s.node.rows tp _ tp).rxObj = _
    rw [upd_same]; exact ⟨rfl, rfl⟩
  have p0 : unusedObjs env c1.s.node = unusedObjs env c.s.node ∧ unusedSlots env c1.s.node = unusedSlots env c.s.node ∧
      c1.s.node.nrMod = c.s.node.nrMod ∧ c1.s.node.silent = c.s.node.silent ∧ c1.s.node.errq = c.s.node.errq := by
    rw [← hc1]; exact ⟨rfl, rfl, rfl, rfl, rfl⟩
  clear hc1
  have k1 := loop_ports (f := setTx1 env tp nr') tp (fun i c => setTx1_ports hh tp nr' i c) (List.range (c1.s.node.rows tp).txObj) c1
  rw [List.length_range, r1.1, r1.2] at k1
  have e1 : c1.setTx env tp nr' = loop (setTx1 env tp nr') (List.range tpl.txObj) c1 := by unfold setTx; rw [r1.1]
  rw [e1]
  generalize loop (setTx1 env tp nr') (List.range tpl.txObj) c1 = q1 at k1
  obtain ⟨k1, k1r⟩ := k1
  have k2 : Ports env tpl.rxObj q1.1.s.node (setRx env q1.1.s.node tp nr').1 (setRx env q1.1.s.node tp nr').2 := by
    unfold setRx
    extract_lets n0
    have n1 : n0.hw = q1.1.s.node.hw := rfl
    have n2 : n0.slots = q1.1.s.node.slots := rfl
    have n3 : n0.nrMod = q1.1.s.node.nrMod := rfl
    have n4 : n0.silent = q1.1.s.node.silent := rfl
    have n5 : n0.errq = q1.1.s.node.errq := rfl
    have n6 : (n0.rows tp).rxObj = tpl.rxObj := by
      rw [← k1r]
      show (upd q1.1.s.node.rows tp _ tp).rxObj = _
      rw [upd_same]
    clear_value n0
    have := forErr_ports (f := setRx1 env tp nr') (fun i n => setRx1_ports hh tp nr' i n) (List.range (n0.rows tp).rxObj) n0
    rw [List.length_range, n6] at this
    rw [n6]
    exact this.from n1.symm n2.symm n3.symm n4.symm n5.symm
  have k3 := k1.add fun _ => k2
  have eo : q1.1.onNode (setRx env · tp nr') = (q1.1.setNode (setRx env q1.1.s.node tp nr').1, (setRx env q1.1.s.node tp nr').2) := rfl
  rw [← p0.1, ← p0.2.1]
  by_cases h1 : q1.2 = E.ok
  · rw [if_pos h1, if_pos h1] at k3
    simp only [andThen, if_pos h1]
    rw [eo]
    generalize setRx env q1.1.s.node tp nr' = q2 at k3
    obtain ⟨j1, j2, j3, j4, j5⟩ := k3
    by_cases h2 : q2.2 = E.ok
    · rw [if_pos h2]
      obtain ⟨j6, j7⟩ := j2 h2
      have t := tail_err hh h10 tp nr' htp (q1.1.setNode q2.1)
        (by show q2.1.nrMod < _; rw [j3, p0.2.2.1]; exact hm) (by show q2.1.silent tp = 0 ∨ q2.1.silent tp = 1; rw [j4, p0.2.2.2.1]; exact hst)
      refine ⟨?_, t.2.trans (j5.trans p0.2.2.2.2)⟩
      rw [t.1]
      unfold regError
      have j6 : unusedObjs env (q1.1.setNode q2.1).s.node + (tpl.txObj + tpl.rxObj) = unusedObjs env c1.s.node := j6
      by_cases hu : 1 ≤ unusedObjs env (q1.1.setNode q2.1).s.node
      · rw [if_pos hu, if_pos ⟨by omega, by omega⟩]
      · rw [if_neg hu, if_neg (fun e => by omega), if_pos (.inr (by omega))]
    · rw [if_neg h2]
      refine ⟨?_, j5.trans p0.2.2.2.2⟩
      show q2.2 = _
      have hn : ¬ (tpl.txObj + tpl.rxObj ≤ unusedObjs env c1.s.node ∧ tpl.txObj + tpl.rxObj ≤ unusedSlots env c1.s.node) :=
        fun e => h2 (j1.trans (portErr_ok.2 e))
      exact j1.trans (regError_of_port hn)
  · rw [if_neg h1, if_neg h1] at k3
    simp only [andThen, if_neg h1]
    obtain ⟨j1, j2, j3, j4, j5⟩ := k3
    refine ⟨?_, j5.trans p0.2.2.2.2⟩
    have hn : ¬ (tpl.txObj + tpl.rxObj ≤ unusedObjs env c1.s.node ∧ tpl.txObj + tpl.rxObj ≤ unusedSlots env c1.s.node) :=
      fun e => h1 (j1.trans (portErr_ok.2 e))
    exact j1.trans (regError_of_port hn)

/-- **C122**: what a registration on the monitor CPU puts into the error queue, exactly, and what it answers: the
answer does not tell. -/
theorem C122_reported_iff (env : Env) (hh : ∀ k, env.hwOk k = true) (h10 : 10 < env.nObj) (hq : env.sysErr = true) (c c' : Cpu2)
    (tpl : Row) (tx2 : Cpu2Row) (nr : Nat) (rx tx : Nat → Nat) (i : Nat) (hi : i < env.maxMod)
    (hfree : (c.s.node.rows i).typ = []) (hfull : ∀ j < i, (c.s.node.rows j).typ ≠ [])
    (hm : c.s.node.nrMod < env.maxMod) (hst : c.s.node.silent i = 0 ∨ c.s.node.silent i = 1)
    (hs : step env c (.add tpl tx2 nr rx tx) = some c') :
    c'.s.node.errq =
      (let e := regError (tpl.txObj + tpl.rxObj) (unusedObjs env c.s.node) (unusedSlots env c.s.node)
       if e = 0x0000#16 then c.s.node.errq else (c.s.node.errq.syserrSend env.qSize e 4 (c'.s.node.rows 0).nr).1) ∧
    (c.addModule env tpl tx2 nr rx tx).2 = if ∃ j < i, (c.s.node.rows j).nr = nr then E.redeclaredNr else E.ok := by
  have hs := Option.some.inj hs
  subst hs
  have hfind : ((List.range env.maxMod).find? fun i => (c.s.node.rows i).typ = []) = some i := by
    rw [List.find?_range_eq_some]
    exact ⟨by simpa using hfree, by simpa using hi, fun j hj => by simpa using hfull j hj⟩
  have key : ∃ k, (c.addModule env tpl tx2 nr rx tx).1 =
        (c.setModule env i tpl tx2 k rx tx).1.setNode (report env (c.setModule env i tpl tx2 k rx tx).1.s.node (c.setModule env i tpl tx2 k rx tx).2) ∧
      (c.addModule env tpl tx2 nr rx tx).2 = if ∃ j < i, (c.s.node.rows j).nr = nr then E.redeclaredNr else E.ok := by
    simp only [addModule, hfind]
    by_cases hx : ∃ j < i, (c.s.node.rows j).nr = nr
    · have ha : ((List.range i).any fun j => decide ((c.s.node.rows j).nr = nr)) = true := by
        obtain ⟨j, hj, e⟩ := hx
        exact List.any_eq_true.mpr ⟨j, List.mem_range.mpr hj, decide_eq_true e⟩
      rw [if_pos ha, if_pos hx]
      exact ⟨125 + i, rfl, rfl⟩
    · have ha : ¬ ((List.range i).any fun j => decide ((c.s.node.rows j).nr = nr)) = true := by
        intro e
        obtain ⟨j, hj, e⟩ := List.any_eq_true.mp e
        exact hx ⟨j, List.mem_range.mp hj, of_decide_eq_true e⟩
      rw [if_neg ha, if_neg hx]
      exact ⟨nr, rfl, rfl⟩
  obtain ⟨k, e1, e2⟩ := key
  refine ⟨?_, e2⟩
  rw [e1]
  obtain ⟨m1, m2⟩ := setModule_err hh h10 c i hi tpl tx2 k rx tx hm hst
  generalize c.setModule env i tpl tx2 k rx tx = r at m1 m2 ⊢
  rw [← m1]
  show (report env r.1.s.node r.2).errq = (if r.2 = _ then _ else (ErrQ.syserrSend _ _ _ _ ((report env r.1.s.node r.2).rows 0).nr).1)
  rw [report_rows]
  unfold report
  by_cases hr : r.2 = E.ok
  · rw [if_neg (fun e => e.2 hr), if_pos hr, m2]
  · rw [if_pos ⟨hq, hr⟩, if_neg hr]
    show (ErrQ.syserrSend _ _ _ _ _).1 = _
    rw [m2]

/-- one row -/
def exOneRow : Env := { exEnv with maxMod := 1 }

/-- C122: in this state the hypotheses hold; one registration fits, the other needs a fifth slot -/
example : (run exOneRow (boot exMem) [.api (.init 250)]).map (fun c =>
      decide ((c.s.node.rows 0).typ = [] ∧ c.s.node.nrMod = 0 ∧ c.s.node.silent 0 = 1 ∧ unusedObjs exOneRow c.s.node = 27 ∧
        unusedSlots exOneRow c.s.node = 4 ∧ regError 4 27 4 = 0x0000#16 ∧ regError 5 27 4 = 0x5028#16 ∧ regError 4 4 4 = 0x5023#16)) = some true ∧
    (∀ k, exOneRow.hwOk k = true) ∧ 10 < exOneRow.nObj ∧ exOneRow.sysErr = true ∧
    (run exOneRow (boot exMem) [.api (.init 250), exAdd 65 2 2 5]).map (fun c => c.s.node.errq.getCount) = some 0 := by
  refine ⟨by decide +kernel, fun _ => rfl, by decide, rfl, by decide +kernel⟩

/-- **C122**, counterexample to "what the main CPU can register the monitor CPU can": a module with three receive and two
transmit objects in a device with one row.  The main CPU is complete, on the monitor CPU the third receive object has no
slot and the error is only found in the queue; the module is switched on without a control object. -/
theorem C122_counterexample_main_fits :
    (Slave.run exOneRow (Slave.boot exMem) [.init 250, .table (.add (exTpl 65 3 2) 5 (fun j => 100 + j) (fun j => 110 + j))]).map
      (fun s => (s.node.errq.getCount, s.node.nrMod, s.node.slots.length)) = some (0, 1, 3) ∧
    (run exOneRow (boot exMem) [.api (.init 250), exAdd 65 3 2 5]).map
      (fun c => (c.s.node.errq.getCount, c.s.node.nrMod, c.s.node.slots.length)) = some (1, 0, 4) := by
  decide +kernel

end Cpu2
end LiCan
