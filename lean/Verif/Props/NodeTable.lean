import Verif.Lemmas.NodeExample
/-!
# Module table and message objects: C04 – C08

`Reach env n`: `n` is reached from a successful initialisation by any sequence of registrations,
silent/awake, active and critical requests and process requests (with any arguments allowed by
`Basic`, any results of the hardware and the driver, any application conversions).
-/
namespace LiCan
open Spec Node

/-- C04: no two registered modules have the same number. -/
theorem C04_numbers_distinct (env : Env) (he : EnvOk env) (n : Node) (h : Reach env n) (i j : Nat)
    (hi : (n.rows i).typ ≠ []) (hj : (n.rows j).typ ≠ []) (hij : i ≠ j) :
    (n.rows i).nr ≠ (n.rows j).nr := by
  obtain ⟨t, hg, hn⟩ := h.good he
  obtain ⟨m, hm, r⟩ := hg.sim.get hi
  obtain ⟨m', hm', r'⟩ := hg.sim.get hj
  rw [r.nr, r'.nr]
  exact hn.dist i j m m' hm hm' hij

example : ((Node.run exEnv (exInit exEnv) exOps).rows 0).typ ≠ [] ∧
    ((Node.run exEnv (exInit exEnv) exOps).rows 1).typ ≠ [] := by decide +kernel

/-- C04: the registered numbers are 2..124 or the default number of the row. -/
theorem C04_number_range (env : Env) (he : EnvOk env) (n : Node) (h : Reach env n) (i : Nat)
    (hi : (n.rows i).typ ≠ []) :
    (2 ≤ (n.rows i).nr ∧ (n.rows i).nr ≤ 124) ∨ (n.rows i).nr = 125 + i := by
  obtain ⟨t, hg, hn⟩ := h.good he
  obtain ⟨m, hm, r⟩ := hg.sim.get hi
  rw [r.nr]; exact hn.range i m hm

/-- C04: the number a registration gives, and what it reports. -/
theorem C04_new_number (env : Env) (he : EnvOk env) (n : Node) (h : Reach env n) (tpl : Row) (nr : Nat)
    (rx tx : Nat → Nat) (hb : Basic (.add tpl nr rx tx)) (i : Nat) (hi : i < env.maxMod)
    (hfree : (n.rows i).typ = []) (hfull : ∀ j < i, (n.rows j).typ ≠ []) :
    let r := addModule env n tpl nr rx tx
    (r.1.rows i).typ = tpl.typ ∧
    ((∃ j < i, (n.rows j).nr = nr) → (r.1.rows i).nr = 125 + i ∧ r.2 = E.redeclaredNr) ∧
    ((∀ j < i, (n.rows j).nr ≠ nr) → r.2 = E.ok ∧
      (nr < 2 ∨ 124 < nr → (r.1.rows i).nr = 125 + i) ∧ (2 ≤ nr ∧ nr ≤ 124 → (r.1.rows i).nr = nr)) := by
  intro r
  obtain ⟨t, hg, hn⟩ := h.good he
  have hlen : t.mods.length = i := by
    have h1 : ¬ i < t.mods.length := fun hh => (hg.sim.registered i).2 hh hfree
    have h2 : ∀ j < i, j < t.mods.length := fun j hj => (hg.sim.registered j).1 (hfull j hj)
    rcases Nat.eq_zero_or_pos i with rfl | hp
    · omega
    · have := h2 (i - 1) (by omega); omega
  have hadd := hg.add he tpl nr rx tx hb
  simp only at hadd
  obtain ⟨g, e, _⟩ := hadd
  have hl : t.mods.length ≠ env.maxMod := by omega
  have hdup : (t.mods.any fun m => decide (m.nr = nr)) = true ↔ ∃ j < i, (n.rows j).nr = nr := by
    rw [List.any_eq_true]
    constructor
    · rintro ⟨m, hm, e⟩
      obtain ⟨j, hj, rfl⟩ := List.getElem_of_mem hm
      refine ⟨j, by omega, ?_⟩
      rw [(hg.sim.row j t.mods[j] (by simp)).nr]; simpa using e
    · rintro ⟨j, hj, e⟩
      refine ⟨t.mods[j]'(by omega), List.getElem_mem _, ?_⟩
      rw [← (hg.sim.row j (t.mods[j]'(by omega)) (by simp)).nr]; simpa using e
  simp only [Table.step, hl, if_false] at g e
  have hrow := fun m hm => g.sim.row i m hm
  simp only [← hlen, List.getElem?_concat_length, Option.some.injEq, forall_eq'] at hrow
  rw [hlen] at hrow
  refine ⟨hrow.typ, ?_, ?_⟩
  · intro hd
    have hd' := hdup.2 hd
    refine ⟨?_, ?_⟩
    · rw [hrow.nr]; simp [newNr, hd', hlen]
    · show (addModule env n tpl nr rx tx).2 = _
      rw [e, if_pos hd']
  · intro hd
    have hd' : ¬ (t.mods.any fun m => decide (m.nr = nr)) = true := by
      rw [hdup]; rintro ⟨j, hj, e⟩; exact hd j hj e
    refine ⟨?_, ?_, ?_⟩
    · show (addModule env n tpl nr rx tx).2 = _
      rw [e, if_neg hd']
    · intro hr
      rw [hrow.nr]; simp only [newNr]
      rw [if_pos (.inr hr), hlen]
    · intro hr
      rw [hrow.nr]; simp only [newNr]
      rw [if_neg (by simp only [not_or]; exact ⟨hd', by omega, by omega⟩)]

/-- a third module with a number already taken, one with number 200 -/
example :
    let n := Node.run exEnv (exInit exEnv) exOps
    (n.rows 2).typ = [] ∧ (∀ j < 2, (n.rows j).typ ≠ []) ∧ (n.rows 1).nr = 9 ∧
    (addModule exEnv n (exTpl 67 1 1) 9 (fun _ => 1) (fun _ => 2)).2 = E.redeclaredNr ∧
    ((addModule exEnv n (exTpl 67 1 1) 9 (fun _ => 1) (fun _ => 2)).1.rows 2).nr = 127 ∧
    ((addModule exEnv n (exTpl 67 1 1) 200 (fun _ => 1) (fun _ => 2)).1.rows 2).nr = 127 := by
  decide +kernel

/-- C05: a full table stays as it is and the caller is told. -/
theorem C05_full (env : Env) (n : Node) (tpl : Row) (nr : Nat) (rx tx : Nat → Nat)
    (h : ∀ i < env.maxMod, (n.rows i).typ ≠ []) :
    addModule env n tpl nr rx tx = (n, E.maxModules) := by
  have : (List.range env.maxMod).find? (fun i => decide ((n.rows i).typ = [])) = none := by
    rw [List.find?_eq_none]
    intro i hi; simp only [List.mem_range] at hi; simpa using h i hi
  simp only [addModule, this]

/-- C05: a registration uses the first free row and leaves every other row as it is. -/
theorem C05_first_free_row (env : Env) (n : Node) (tpl : Row) (nr : Nat) (rx tx : Nat → Nat) (i : Nat)
    (hi : i < env.maxMod) (hfree : (n.rows i).typ = []) (hfull : ∀ j < i, (n.rows j).typ ≠ []) :
    ∀ x, x ≠ i → (addModule env n tpl nr rx tx).1.rows x = n.rows x := by
  have : (List.range env.maxMod).find? (fun i => decide ((n.rows i).typ = [])) = some i := by
    rw [List.find?_range_eq_some]
    refine ⟨by simpa using hfree, by simpa using hi, ?_⟩
    intro j hj; simpa using hfull j hj
  intro x hx
  simp only [addModule, this]
  split
  · rw [report_rows]; exact (setModule_except env n i tpl _ rx tx).eq x hx
  · rw [report_rows]; exact (setModule_except env n i tpl _ rx tx).eq x hx

/-- C05: the number of registered modules never exceeds the configured maximum. -/
theorem C05_capacity (env : Env) (he : EnvOk env) (n : Node) (h : Reach env n) (i : Nat)
    (hi : (n.rows i).typ ≠ []) : i < env.maxMod ∧ ∀ j ≤ i, (n.rows j).typ ≠ [] := by
  obtain ⟨t, hg, _⟩ := h.good he
  have h1 := (hg.sim.registered i).1 hi
  have h2 := hg.sim.len
  exact ⟨by omega, fun j hj => (hg.sim.registered j).2 (by omega)⟩

/-- a fourth registration is refused -/
example :
    let n := Node.run exEnv (exInit exEnv) (exOps ++ [.add (exTpl 67 1 1) 9 (fun _ => 1) (fun _ => 2)])
    (∀ i < exEnv.maxMod, (n.rows i).typ ≠ []) ∧
    (addModule exEnv n (exTpl 68 1 1) 20 (fun _ => 1) (fun _ => 2)).2 = E.maxModules := by
  decide +kernel

/-! ## message objects -/

/-- C07: the message objects in the receive table and the asynchronous control objects are
pairwise different, exist, and are none of the objects reserved at initialisation. -/
theorem C07_assigned_once (env : Env) (he : EnvOk env) (n : Node) (h : Reach env n) :
    (n.slots.map (·.1) ++ ((List.range n.nrMod).map n.ctrlObj).filter (· ≠ 0)).Nodup ∧
    ∀ o ∈ n.slots.map (·.1) ++ ((List.range n.nrMod).map n.ctrlObj).filter (· ≠ 0),
      o < env.nObj ∧ o ≠ 0 ∧ o ≠ 2 ∧ (env.sysObj2 = true → o ≠ 3) ∧ o ≠ 6 ∧ o ≠ 10 := by
  obtain ⟨t, hg, _⟩ := h.good he
  refine ⟨hg.hw.nodup, ?_⟩
  intro o ho
  have := hg.hw.asg o ho
  unfold Fixed at this
  refine ⟨this.1, fun hh => this.2.1 (by simp [hh]), fun hh => this.2.1 (by simp [hh]),
    fun h2 hh => this.2.1 (by simp [hh, h2]), fun hh => this.2.1 (by simp [hh]),
    fun hh => this.2.1 (by simp [hh])⟩

/-- eight message objects in use: 3 receive objects, 2 control objects besides the reserved ones -/
example : (Node.run exEnv (exInit exEnv) exOps).slots = [(1, 0), (4, 0), (7, 1)] ∧
    (Node.run exEnv (exInit exEnv) exOps).ctrlObj 0 = 5 ∧
    (Node.run exEnv (exInit exEnv) exOps).ctrlObj 1 = 8 := by decide +kernel

/-- C07: an object once in use keeps its programming; only the acceptance filter objects (system
objects 2 and 3, asynchronous data object 6) are programmed again. -/
theorem C07_never_reprogrammed (env : Env) (he : EnvOk env) (n : Node) (h : Reach env n) (op : Op)
    (hb : Basic op) (o : Nat) (ho : n.hw.used o = true) :
    (Node.step env n op).1.hw.used o = true ∧
    (o ≠ 2 → (env.sysObj2 = true → o ≠ 3) → o ≠ 6 → (Node.step env n op).1.hw.defs o = n.hw.defs o) := by
  obtain ⟨t, hg, _⟩ := h.good he
  have hk := (hg.step he op hb).2.2.keeps o ho
  refine ⟨hk.1, fun h2 h3 h6 => hk.2 ?_⟩
  rintro (e | ⟨e, e'⟩ | e)
  · exact h2 e
  · exact h3 e' e
  · exact h6 e

/-- C07: two receive objects of completely configured modules never share a message object. -/
theorem C07_rx_objects_distinct (env : Env) (he : EnvOk env) (n : Node) (h : Reach env n) (i i' j j' : Nat)
    (hi : (n.rows i).typ ≠ []) (hi' : (n.rows i').typ ≠ []) (hc : Configured n i) (hc' : Configured n i')
    (hj : j < (n.rows i).rxObj) (hj' : j' < (n.rows i').rxObj)
    (he' : (n.rows i).rxMsgObj j = (n.rows i').rxMsgObj j') : i = i' ∧ j = j' := by
  obtain ⟨t, hg, hn⟩ := h.good he
  obtain ⟨m, hm, r⟩ := hg.sim.get hi
  obtain ⟨m', hm', r'⟩ := hg.sim.get hi'
  have e1 := (hc.rx j hj).2
  have e2 := (hc'.rx j' hj').2
  rw [he', e2] at e1
  simp only [rxDef, Option.some.injEq, ObjDef.mk.injEq] at e1
  have hr := C04_number_range env he n h i hi
  have hr' := C04_number_range env he n h i' hi'
  have hb : i < env.maxMod := (C05_capacity env he n h i hi).1
  have hb' : i' < env.maxMod := (C05_capacity env he n h i' hi').1
  have h8 := he.m8
  have h4 := r.rx4
  have h4' := r'.rx4
  have e3 := e1.1
  unfold syncRxId at e3
  rw [idOf_eq _ _ _ (by omega) (by omega), idOf_eq _ _ _ (by omega) (by omega)] at e3
  have : (n.rows i).nr = (n.rows i').nr := by omega
  have hii : i = i' := by
    by_cases e : i = i'
    · exact e
    · exact absurd this (C04_numbers_distinct env he n h i i' hi hi' e)
  exact ⟨hii, by omega⟩

theorem slotRow_iff {env : Env} {bd : Nat → Nat} {c : Nat} {n : Node} (h : HwInv env bd c n)
    (hn : env.nObj ≤ 32) (o : Nat) (ho : o < 32) (r : Nat) :
    n.slotRow o = some r ↔ (o, r) ∈ n.slots := by
  have hbit : ∀ s ∈ n.slots, (bit o &&& bit s.1 ≠ 0) ↔ s.1 = o := by
    intro s hs
    have hs32 : s.1 < 32 := by
      have := (h.asg s.1 (by simp only [assigned, List.mem_append, List.mem_map]; exact .inl ⟨s, hs, rfl⟩)).1
      omega
    constructor
    · intro hne
      obtain ⟨p, hp⟩ := exists_bit hne
      simp only [BitVec.getLsbD_and, Bool.and_eq_true, bit_get _ _ ho, bit_get _ _ hs32, decide_eq_true_eq] at hp
      omega
    · intro e
      apply ne_zero_of_bit (p := o)
      simp [bit_get _ _ ho, e]
  have hfind : n.slots.find? (fun s => decide (bit o &&& bit s.1 ≠ 0)) = n.slots.find? (fun s => decide (s.1 = o)) := by
    have : ∀ l : List (Nat × Nat), (∀ s ∈ l, (bit o &&& bit s.1 ≠ 0) ↔ s.1 = o) →
        l.find? (fun s => decide (bit o &&& bit s.1 ≠ 0)) = l.find? (fun s => decide (s.1 = o)) := by
      intro l
      induction l with
      | nil => intro _; rfl
      | cons a l ih =>
        intro hl
        have ha := hl a (by simp)
        simp only [List.find?_cons, ih (fun s hs => hl s (by simp [hs]))]
        by_cases e : a.1 = o
        · simp only [e, decide_true]
          rw [show decide (bit o &&& bit o ≠ 0) = true from by rw [decide_eq_true_eq]; have := ha.2 e; rwa [e] at this]
        · rw [show decide (bit o &&& bit a.1 ≠ 0) = false from by rw [decide_eq_false_iff_not]; exact fun hh => e (ha.1 hh),
            show decide (a.1 = o) = false from by simpa using e]
    exact this _ hbit
  have hnd : (n.slots.map (·.1)).Nodup := (List.nodup_append.1 h.nodup).1
  unfold slotRow
  rw [hfind]
  have aux : ∀ l : List (Nat × Nat), (l.map (·.1)).Nodup →
      ((l.find? fun s => decide (s.1 = o)).map (·.2) = some r ↔ (o, r) ∈ l) := by
    intro l
    induction l with
    | nil => intro _; simp
    | cons a l ih =>
      intro hd
      simp only [List.map_cons, List.nodup_cons, List.mem_map, not_exists, not_and] at hd
      obtain ⟨a1, a2⟩ := a
      simp only [List.find?_cons]
      by_cases e : a1 = o
      · subst e
        simp only [decide_true, Option.map_some, Option.some.injEq, List.mem_cons, Prod.mk.injEq, true_and]
        constructor
        · intro e; exact .inl e.symm
        · rintro (e | e)
          · exact e.symm
          · exact absurd rfl (hd.1 (a1, r) e)
      · simp only [e, decide_false, ih hd.2, List.mem_cons, Prod.mk.injEq]
        constructor
        · exact .inr
        · rintro (⟨e', _⟩ | e')
          · exact absurd e'.symm e
          · exact e'
  exact aux _ hnd

/-- C08: the row a received synchronous frame is attributed to owns the message object: it is a
registered module, one of its receive objects was given this message object, and the message
object is programmed with the identifier of that receive object. -/
theorem C08_attributed_to_owner (env : Env) (he : EnvOk env) (n : Node) (h : Reach env n) (o i : Nat)
    (ho : o < env.nObj) (hs : n.slotRow o = some i) :
    (n.rows i).typ ≠ [] ∧ ∃ j < (n.rows i).rxObj, (n.rows i).rxMsgObj j = o ∧
      n.hw.defs o = some ⟨0x200 + 4 * ((n.rows i).nr - 1) + j, 0x7FF#16, (n.rows i).rxDlc j, .rx true⟩ := by
  obtain ⟨t, hg, _⟩ := h.good he
  have h32 := he.o32
  have hm := (slotRow_iff hg.hw h32 o (by omega) i).1 hs
  obtain ⟨j, hj, e1, e2⟩ := hg.hw.slot _ hm
  simp only [rxBd] at hj
  split at hj
  · next hl =>
    have hreg := (hg.sim.registered i).2 hl
    refine ⟨hreg, j, hj, e1, ?_⟩
    have hr := C04_number_range env he n h i hreg
    have hb : i < env.maxMod := (C05_capacity env he n h i hreg).1
    have h8 := he.m8
    have h4 := (hg.sim.row i t.mods[i] (by simp [hl])).rx4
    rw [e2]
    simp only [rxDef, syncRxId]
    rw [idOf_eq _ _ _ (by omega) (by omega)]
    congr 2; omega
  · omega

/-- C08: every receive object of a completely configured module is attributed to its row, and
reported to the synchronous handler. -/
theorem C08_configured_is_attributed (env : Env) (he : EnvOk env) (n : Node) (h : Reach env n) (i j : Nat)
    (hc : Configured n i) (hj : j < (n.rows i).rxObj) :
    n.slotRow ((n.rows i).rxMsgObj j) = some i ∧
    n.hw.isrRx.getLsbD ((n.rows i).rxMsgObj j) = true := by
  obtain ⟨t, hg, _⟩ := h.good he
  have h32 := he.o32
  have hm := (hc.rx j hj).1
  have ho := (hg.hw.asg _ (by
    simp only [assigned, List.mem_append, List.mem_map]; exact .inl ⟨_, hm, rfl⟩)).1
  dsimp only at ho
  refine ⟨(slotRow_iff hg.hw h32 _ (by omega) i).2 hm, ?_⟩
  exact (hg.hw.isr _ (by omega)).2 (List.mem_map.2 ⟨_, hm, rfl⟩)

/-- C08: a message object that is not programmed for a receive object of a registered module is
attributed to no row (`WRONG_SLOT`). -/
theorem C08_wrong_slot (env : Env) (he : EnvOk env) (n : Node) (h : Reach env n) (o : Nat)
    (ho : o < env.nObj)
    (hno : ∀ i, (n.rows i).typ ≠ [] → ∀ j < (n.rows i).rxObj, (n.rows i).rxMsgObj j ≠ o) :
    n.slotRow o = none := by
  cases hs : n.slotRow o with
  | none => rfl
  | some i =>
    obtain ⟨hreg, j, hj, e, _⟩ := C08_attributed_to_owner env he n h o i ho hs
    exact absurd e (hno i hreg j hj)

/-- C08: end to end.  If a message object of the synchronous receive service lets a frame with
identifier `id` through, the frame is attributed to the module and object the identifier names. -/
theorem C08_identifier (env : Env) (he : EnvOk env) (n : Node) (h : Reach env n) (o i : Nat)
    (ho : o < env.nObj) (hs : n.slotRow o = some i) (d : ObjDef) (hd : n.hw.defs o = some d)
    (id : Nat) (hid : id < 0x800)
    (hacc : hwAccepts (BitVec.ofNat 16 d.id) d.mask (BitVec.ofNat 16 id) = true) :
    (n.rows i).typ ≠ [] ∧ ∃ j < (n.rows i).rxObj, id = 0x200 + 4 * ((n.rows i).nr - 1) + j := by
  obtain ⟨hreg, j, hj, _, e⟩ := C08_attributed_to_owner env he n h o i ho hs
  refine ⟨hreg, j, hj, ?_⟩
  rw [e, Option.some.injEq] at hd
  subst hd
  have hr := C04_number_range env he n h i hreg
  have hb : i < env.maxMod := (C05_capacity env he n h i hreg).1
  have h8 := he.m8
  obtain ⟨t, hg, _⟩ := h.good he
  have h4 : (n.rows i).rxObj ≤ 4 := by
    obtain ⟨m, hm, r⟩ := hg.sim.get hreg; exact r.rx4
  simp only [hwAccepts, beq_iff_eq] at hacc
  have key : ∀ x : Nat, x < 0x800 → (BitVec.ofNat 16 x &&& 0x7FF#16) = BitVec.ofNat 16 x := by
    intro x hx
    apply BitVec.eq_of_toNat_eq
    simp only [BitVec.toNat_and, BitVec.toNat_ofNat]
    rw [show (2047 % 2 ^ 16) = 2 ^ 11 - 1 from rfl, Nat.and_two_pow_sub_one_eq_mod]
    omega
  rw [key _ hid, key _ (by omega)] at hacc
  have := congrArg BitVec.toNat hacc
  simp only [BitVec.toNat_ofNat] at this
  omega

/-- object 7 belongs to receive object 0 of row 1 (number 9: identifier 0x220); object 9 to nobody -/
example :
    let n := Node.run exEnv (exInit exEnv) exOps
    n.slotRow 7 = some 1 ∧ n.hw.defs 7 = some ⟨0x220, 0x7FF#16, 2, .rx true⟩ ∧
    hwAccepts 0x220#16 0x7FF#16 0x220#16 = true ∧ n.slotRow 9 = none := by decide +kernel

/-! ## C06 -/

/-- C06 (the provable part): with enough free message objects and a working controller, a
registration configures the module completely: every receive object has its own programmed
message object, known to the receive table, and the control object exists.  Missing for the full
claim: the return code, see `C06_counterexample`. -/
theorem C06_complete_partial (env : Env) (he : EnvOk env) (n : Node) (h : Reach env n)
    (hhw : ∀ k, env.hwOk k = true) (tpl : Row) (nr : Nat) (rx tx : Nat → Nat)
    (hb : Basic (.add tpl nr rx tx)) (i : Nat) (hi : i < env.maxMod)
    (hfree : (n.rows i).typ = []) (hfull : ∀ j < i, (n.rows j).typ ≠ [])
    (hst : n.silent i = 0 ∨ n.silent i = 1)
    (hfr : tpl.rxObj + 1 ≤ ((List.range env.nObj).filter fun o => !n.hw.used o).length) :
    let n' := (addModule env n tpl nr rx tx).1
    (∀ j < tpl.rxObj, ∃ o < env.nObj, (n'.rows i).rxMsgObj j = o ∧ n'.slotRow o = some i ∧
      n'.hw.isrRx.getLsbD o = true ∧
      n'.hw.defs o = some ⟨0x200 + 4 * ((n'.rows i).nr - 1) + j, 0x7FF#16, tpl.rxDlc j, .rx true⟩) ∧
    (∃ o < env.nObj, n'.hw.ctrlMask.getLsbD o = true ∧
      n'.hw.defs o = some ⟨0x600 + 4 * ((n'.rows i).nr - 1), 0x7FF#16, 8, .asyncCtrlRx⟩) := by
  intro n'
  have hr' : Reach env n' := h.step (.add tpl nr rx tx) hb
  obtain ⟨t, hg, hn⟩ := h.good he
  have hlen : t.mods.length = i := by
    have h1 : ¬ i < t.mods.length := fun hh => (hg.sim.registered i).2 hh hfree
    have h2 : ∀ j < i, j < t.mods.length := fun j hj => (hg.sim.registered j).1 (hfull j hj)
    rcases Nat.eq_zero_or_pos i with rfl | hp
    · omega
    · have := h2 (i - 1) (by omega); omega
  have hadd := hg.add he tpl nr rx tx hb
  simp only at hadd
  have hok := hg.add_ok he hhw tpl nr rx tx hb (by omega) (by rw [hlen]; exact hst) hfr
  obtain ⟨g, _, _, hc⟩ := hadd
  have hc : Configured n' i := by rw [← hlen]; exact hc (by omega) (by simp [hok.1])
  have hnr := C04_new_number env he n h tpl nr rx tx hb i hi hfree hfull
  have htyp : (n'.rows i).typ ≠ [] := by
    have : (n'.rows i).typ = tpl.typ := hnr.1
    rw [this]; exact hb.1
  have hrange := C04_number_range env he n' hr' i htyp
  have hbi : i < 8 := by have := he.m8; omega
  have h32 := he.o32
  obtain ⟨t', hg', _⟩ := hr'.good he
  -- receive objects and lengths are those of the template
  have hl : t.mods.length ≠ env.maxMod := by omega
  have hrxo : (n'.rows i).rxObj = tpl.rxObj ∧ (n'.rows i).rxDlc = tpl.rxDlc := by
    have key : ∃ k, n' = report env (setModule env n i tpl k rx tx).1 (setModule env n i tpl k rx tx).2 := by
      show ∃ k, (addModule env n tpl nr rx tx).1 = _
      simp only [addModule, hg.sim.freeRow, hl, if_false]
      rw [hlen]
      split
      · exact ⟨125 + i, rfl⟩
      · exact ⟨nr, rfl⟩
    obtain ⟨k, hk⟩ := key
    rw [hk, report_rows]
    exact ⟨setModule_rxObj env n i tpl k rx tx hi hb.2.1, setModule_rxDlc env n i tpl k rx tx hi hb.2.1⟩
  refine ⟨?_, ?_⟩
  · intro j hj
    have hj' : j < (n'.rows i).rxObj := by rw [hrxo.1]; exact hj
    have h4 : tpl.rxObj ≤ 4 := hb.2.2
    have hm := (hc.rx j hj').1
    have ho := (hg'.hw.asg _ (by
      simp only [assigned, List.mem_append, List.mem_map]; exact .inl ⟨_, hm, rfl⟩)).1
    have ha := C08_configured_is_attributed env he n' hr' i j hc hj'
    refine ⟨_, ho, rfl, ha.1, ha.2, ?_⟩
    rw [(hc.rx j hj').2]
    simp only [rxDef, syncRxId]
    rw [idOf_eq _ _ _ (by omega) (by omega), hrxo.2]
    congr 2; omega
  · obtain ⟨o, g1, g2, g3, g4⟩ := hc.ctrl
    have ho := (hg'.hw.asg o (by simp only [assigned, List.mem_append]; exact .inr g1)).1
    refine ⟨o, ho, g4, ?_⟩
    rw [g3]
    simp only [asyncCtrlRxId]
    rw [idOf_eq _ _ _ (by omega) (by omega)]
    congr 2; omega

/-- the second registration of `exOps` meets the hypotheses -/
example :
    let n := Node.run exEnv (exInit exEnv) [exOps.head (by simp [exOps])]
    (n.rows 1).typ = [] ∧ (∀ j < 1, (n.rows j).typ ≠ []) ∧ n.silent 1 = 1 ∧
    (exTpl 66 1 3).rxObj + 1 ≤ ((List.range exEnv.nObj).filter fun o => !n.hw.used o).length := by
  decide +kernel

/-- C06: over whole histories.  If the message objects suffice for all registrations (one per
receive object plus one per module, on top of the reserved ones), the controller works and
silent/awake requests are well-formed, every registered module is completely configured. -/
theorem C06_history_partial (env : Env) (he : EnvOk env) (hhw : ∀ k, env.hwOk k = true)
    (mem : Nat → List Byte) (ops : List Op) (hok : (Node.init env (boot mem)).2 = E.ok)
    (hb : ∀ o ∈ ops, Basic o ∧ StateOk o)
    (hn : (ops.map need).sum + (if env.sysObj2 then 5 else 4) ≤ env.nObj) (i : Nat)
    (hi : ((Node.run env (Node.init env (boot mem)).1 ops).rows i).typ ≠ []) :
    Configured (Node.run env (Node.init env (boot mem)).1 ops) i := by
  have hg := Good.init he mem hok
  have hc := Good.complete he hhw ops hb hg (by simp [Table.empty]) (by
    rw [freeCnt_init he mem hok]; omega) (by simp [Table.empty])
  have hg' := Good.run he ops (fun o ho => (hb o ho).1) hg
  exact hc.2 i ((hg'.sim.registered i).1 hi)

example : (exOps.map need).sum + 5 ≤ exEnv.nObj ∧ ∀ o ∈ exOps, StateOk o := by
  refine ⟨by decide, ?_⟩
  simp [exOps, StateOk]

/-- C06 is false: with eleven message objects the first module (four receive objects) takes five
of the six free ones; registering the second one returns OK, although no message object is
programmed for its second receive object (number 9, identifier 0x221) and it has no
asynchronous control object (identifier 0x620). -/
theorem C06_counterexample :
    let n := Node.run exSmall (exInit exSmall) [.add (exTpl 65 4 1) 5 (fun _ => 1) (fun _ => 2)]
    let r := addModule exSmall n (exTpl 66 2 1) 9 (fun _ => 3) (fun _ => 4)
    Reach exSmall n ∧ r.2 = E.ok ∧ (r.1.rows 1).typ = [77, 68, 66] ∧
    (∀ o < exSmall.nObj, ∀ d ∈ r.1.hw.defs o, d.id ≠ 0x221 ∧ d.id ≠ 0x620) := by
  refine ⟨exReachSmall _ (by simp [Basic, exTpl]), ?_⟩
  decide +kernel

end LiCan
