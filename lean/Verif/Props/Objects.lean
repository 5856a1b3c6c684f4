import Verif.Lemmas.Objects
import Verif.Lemmas.NodeExample
import Verif.Props.Restart
import Verif.Model.SlaveRun
/-!
# C131: whose data a received process data frame is taken for after a further initialization

The table which says to which module (row) a message object belongs is never cleared: `lcsa_init` keeps it, entries are only
appended, and the first entry for an object counts.
-/
namespace LiCan
open Spec Node

/-- Whatever is called afterwards, further initializations, registrations, number and type changes included, and whatever
the driver answers: an object once given to a module (row) is that row's for ever. -/
theorem C131_first_use_decides (env : Env) (n : Node) (o r : Nat) (h : n.slotRow o = some r) (ops : List Op)
    (eps : List (List Op)) : (Node.lives env (Node.run env n ops) eps).slotRow o = some r :=
  ((run_grows env ops n).trans (lives_grows env eps _)).slotRow h

example : (Node.run exEnv (exInit exEnv) exOps).slotRow 7 = some 1 ∧
    ((Node.lives exEnv (Node.run exEnv (exInit exEnv) exOps)
      [[.add (exTpl 67 4 1) 5 (fun j => 100 + j) (fun j => 110 + j)]]).rows 0).rxMsgObj 3 = 7 := by decide +kernel

/-- After any number of initializations with everything registered completely: the receive objects of the modules registered
last are the next free ones in turn, and an object belongs to the row which had it in the first period in which it was used
at all. -/
theorem C131_whose (env : Env) (he : EnvOk env) (hhw : ∀ k, env.hwOk k = true) (mem : Nat → List Byte)
    (eps : List (List Op)) (ops : List Op) (hf : FitsAll env (eps ++ [ops])) :
    let n := Node.lives env (Node.boot mem) (eps ++ [ops])
    let free := freeObjs env.nObj env.sysObj2
    (∀ i c, (rxCounts ops)[i]? = some c → (n.rows i).rxObj = c ∧
      ∀ j < c, free[objsNeeded ((rxCounts ops).take i) + j]? = some ((n.rows i).rxMsgObj j)) ∧
    ∀ o < 32, n.slotRow o = (eps ++ [ops]).findSome? fun ops => rowOf (layout free 0 (rxCounts ops)) o := by
  intro n free
  have h := lives_lay he hhw mem ops eps hf
  refine ⟨h.rx, fun o ho => ?_⟩
  have e : n.slots = written env (eps ++ [ops]) := by
    rw [written_append]; exact h.slots.trans (by simp [written])
  rw [slotRow_rowOf (fun s hs => ?_) ho, e]
  · exact written_rowOf env o (eps ++ [ops])
  · rw [e] at hs; exact Nat.lt_of_lt_of_le (written_lt hs) he.o32

/-- The data of a receive object is taken for its own module exactly if no other row had the object first. -/
theorem C131_right_iff (env : Env) (he : EnvOk env) (hhw : ∀ k, env.hwOk k = true) (mem : Nat → List Byte)
    (eps : List (List Op)) (ops : List Op) (hf : FitsAll env (eps ++ [ops])) (i c j : Nat)
    (hc : (rxCounts ops)[i]? = some c) (hj : j < c) :
    let n := Node.lives env (Node.boot mem) (eps ++ [ops])
    let o := (n.rows i).rxMsgObj j
    n.slotRow o = some i ↔
      ∀ r, (eps.findSome? fun ops => rowOf (layout (freeObjs env.nObj env.sysObj2) 0 (rxCounts ops)) o) = some r → r = i := by
  intro n o
  obtain ⟨h1, h2⟩ := C131_whose env he hhw mem eps ops hf
  have ho := (h1 i c hc).2 j hj
  have hlt : o < 32 := Nat.lt_of_lt_of_le (start_lt (List.mem_of_getElem? ho)) he.o32
  have hl : rowOf (layout (freeObjs env.nObj env.sysObj2) 0 (rxCounts ops)) o = some i := by
    have := layout_mem (rxCounts ops) (tp := 0) hc hj ho
    rw [Nat.zero_add] at this
    exact (rowOf_mem (layout_nodup env (rxCounts ops))).2 this
  rw [h2 o hlt, List.findSome?_append]
  cases hq : eps.findSome? fun ops => rowOf (layout (freeObjs env.nObj env.sysObj2) 0 (rxCounts ops)) o with
  | none => simp [hl]
  | some r => simp

/-- If in every earlier period the same numbers of receive objects were registered in the same order, as far as both go,
every module gets its own data. -/
theorem C131_own_data_partial (env : Env) (he : EnvOk env) (hhw : ∀ k, env.hwOk k = true) (mem : Nat → List Byte)
    (eps : List (List Op)) (ops : List Op) (hf : FitsAll env (eps ++ [ops]))
    (hs : ∀ e ∈ eps, rxCounts e <+: rxCounts ops ∨ rxCounts ops <+: rxCounts e) (i c j : Nat)
    (hc : (rxCounts ops)[i]? = some c) (hj : j < c) :
    let n := Node.lives env (Node.boot mem) (eps ++ [ops])
    n.slotRow ((n.rows i).rxMsgObj j) = some i := by
  intro n
  refine (C131_right_iff env he hhw mem eps ops hf i c j hc hj).2 fun r hr => ?_
  have ho := ((C131_whose env he hhw mem eps ops hf).1 i c hc).2 j hj
  generalize (n.rows i).rxMsgObj j = o at hr ho
  have hl : (o, i) ∈ layout (freeObjs env.nObj env.sysObj2) 0 (rxCounts ops) := by
    have := layout_mem (rxCounts ops) (tp := 0) hc hj ho
    rwa [Nat.zero_add] at this
  obtain ⟨e, hm, hr⟩ := List.exists_of_findSome?_eq_some hr
  have hr' := (rowOf_mem (layout_nodup env (rxCounts e))).1 hr
  rcases hs e hm with ⟨t, h⟩ | ⟨t, h⟩
  · have : (o, r) ∈ layout (start env) 0 (rxCounts ops) := by
      rw [← h, layout_append]; exact List.mem_append_left _ hr'
    exact Option.some.inj (((rowOf_mem (layout_nodup env _)).2 this).symm.trans ((rowOf_mem (layout_nodup env _)).2 hl))
  · have : (o, i) ∈ layout (start env) 0 (rxCounts e) := by
      rw [← h, layout_append]; exact List.mem_append_left _ hl
    exact Option.some.inj (((rowOf_mem (layout_nodup env _)).2 hr').symm.trans ((rowOf_mem (layout_nodup env _)).2 this))

/-- three periods: two modules, the first of them only, both again -/
def exPeriods : List (List Op) := [exOps, exOps.take 1 ++ [.process]]

example : FitsAll exEnv (exPeriods ++ [exOps]) ∧
    (∀ e ∈ exPeriods, rxCounts e <+: rxCounts exOps ∨ rxCounts exOps <+: rxCounts e) ∧ rxCounts exOps = [2, 1] ∧
    let n := Node.lives exEnv (Node.boot exMem) (exPeriods ++ [exOps])
    (n.rows 1).rxMsgObj 0 = 7 ∧ n.slotRow 7 = some 1 ∧ n.slots.length = 8 := by
  refine ⟨⟨?_, by decide +kernel⟩, by decide +kernel, by decide +kernel, by decide +kernel⟩
  simp [exPeriods, exOps, Basic, exTpl, rxCounts, exEnv]
  decide

/-- Once four entries for each possible module have been made, no module with a receive object is registered completely any
more, whatever is free: the controller's objects are not set up to the end and the number of modules stays.  The result is
the same as for a complete registration. -/
theorem C131_exhausted (env : Env) (n : Node) (tpl : Row) (nr : Nat) (rx tx : Nat → Nat)
    (hfull : 4 * env.maxMod ≤ n.slots.length) (hrx : 0 < tpl.rxObj) (h4 : tpl.txObj ≤ 4) (i : Nat)
    (hi : ((List.range env.maxMod).find? fun i => decide ((n.rows i).typ = [])) = some i) :
    let r := Node.step env n (.add tpl nr rx tx)
    r.1.nrMod = n.nrMod ∧ (∀ o, r.1.slotRow o = n.slotRow o) ∧
    r.2 = (if (List.range i).any fun j => decide ((n.rows j).nr = nr) then E.redeclaredNr else E.ok) := by
  have him : i < env.maxMod := List.mem_range.1 (List.mem_of_find?_eq_some hi)
  have key : ∀ k, (report env (setModule env n i tpl k rx tx).1 (setModule env n i tpl k rx tx).2).nrMod = n.nrMod ∧
      ∀ o, (report env (setModule env n i tpl k rx tx).1 (setModule env n i tpl k rx tx).2).slotRow o = n.slotRow o := by
    intro k
    obtain ⟨_, h2, h3⟩ := setModule_full env n i tpl k rx tx him h4 hfull hrx
    have s := report_sameHw env (setModule env n i tpl k rx tx).1 (setModule env n i tpl k rx tx).2
    refine ⟨by rw [s.nrMod, h3], fun o => ?_⟩
    unfold Node.slotRow; rw [s.slots, h2]
  simp only [Node.step, addModule, hi]
  split
  · exact ⟨(key _).1, (key _).2, rfl⟩
  · exact ⟨(key _).1, (key _).2, rfl⟩

/-- Four times the same two modules are registered; the fifth time the table is full: both calls return OK and nothing is
registered. -/
example : let n := Node.lives exEnv (Node.boot exMem) [exOps, exOps, exOps, exOps]
    n.slots.length = 12 ∧ n.nrMod = 2 ∧
    let n' := (Node.init exEnv n).1
    4 * exEnv.maxMod ≤ n'.slots.length ∧ (Node.step exEnv n' (.add (exTpl 65 2 2) 5 (fun j => 100 + j) (fun j => 110 + j))).2 = E.ok ∧
    (Node.run exEnv n' exOps).nrMod = 0 ∧ (Node.run exEnv n' exOps).ctrlObj 0 = 5 ∧
    (Node.run exEnv n' exOps).hw.defs 5 = none := by decide +kernel

/-- one module with four receive objects first, then two others -/
def exBefore : List Op := [.add (exTpl 67 4 1) 5 (fun j => 140 + j) (fun j => 150 + j)]

/-- Not every module gets its own data after a further initialization: module 9's first object has a message object which
belonged to the first module before.  Without the checks its data is written over an object of module 5; with them it is
thrown away.  The driver did everything right in both cases. -/
theorem C131_counterexample_data :
    let life := fun chk => Node.lives { exEnv with chk := chk } (Node.boot exMem) [exBefore, exOps]
    let s := fun chk => { Slave.boot exMem with node := life chk }
    FitsAll exEnv [exBefore, exOps] ∧
    ((life false).rows 1).nr = 9 ∧ ((life false).rows 1).rxMsgObj 0 = 7 ∧ ((life false).rows 1).rx 0 = 120 ∧
    ((life false).hw.defs 7).map (·.id) = some 0x220 ∧ (life false).slotRow 7 = some 0 ∧
    (Slave.handlerRx { exEnv with chk := false } (s false) 0 7 2 0x220 [1, 2]).map
      (fun x => ([100, 120].map x.node.mem, x.sync.cnt 1 0)) = some ([[1, 2], [120, 121]], 0) ∧
    (Slave.handlerRx { exEnv with chk := true } (s true) 0 7 2 0x220 [1, 2]).map
      (fun x => ([100, 120].map x.node.mem, x.sync.cnt 1 0)) = some ([[100, 101], [120, 121]], 0) := by
  refine ⟨⟨?_, by decide +kernel⟩, by decide +kernel⟩
  simp [exBefore, exOps, Basic, exTpl, rxCounts, exEnv]
  decide

end LiCan
