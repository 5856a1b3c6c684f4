import Verif.Props.Renumbered
/-!
# Process requests after a type change: C127

The master may give a module another type which the application has announced (system command 0x31).  C127 says what
process requests are answered with afterwards.
-/
namespace LiCan
open Spec Node

/-- the end of the list lies behind every object of an awake module -/
theorem endOf_ge (l : List Mod) (aw : Nat → Nat) (h4 : ∀ (i : Nat) (m : Mod), l[i]? = some m → m.txObj ≤ 4) (k : Nat) :
    (endOf l aw k = 0 ∨ endOf l aw k < 4 * k) ∧
    ∀ (i : Nat) (m : Mod) (o : Nat), i < k → aw i = 1 → l[i]? = some m → o < m.txObj → 4 * i + o ≤ endOf l aw k := by
  induction k with
  | zero => exact ⟨Or.inl rfl, fun i m o hi => absurd hi (by omega)⟩
  | succ k ih =>
    have h4' : (l[k]?.map Mod.txObj).getD 0 ≤ 4 := by
      cases h : l[k]? with
      | none => simp
      | some m => simpa using h4 k m h
    constructor
    · simp only [endOf, endAt]
      split
      · split
        · rcases ih.1 with h | h <;> omega
        · right; omega
      · rcases ih.1 with h | h <;> omega
    · intro i m o hi ha hm ho
      simp only [endOf]
      by_cases e : i = k
      · subst e
        rw [if_pos ha, hm]
        simp only [Option.map_some, Option.getD_some, endAt]
        rw [if_neg (by omega)]
        omega
      · have := ih.2 i m o (by omega) ha hm ho
        have := h4 i m hm
        split
        · simp only [endAt]
          split <;> omega
        · assumption

theorem retype_noGap {env : Env} {n : Node} {s : SendList} (tp : Nat) (c : Row) (h : SimL env n (s.retype tp c)) :
    ¬ (s.retype tp c).Gap := by
  rintro ⟨p, q, a, b, _, m, hm, hon, hq⟩
  have h4 : ∀ (i : Nat) (m : Mod), (s.retype tp c).tab.mods[i]? = some m → m.txObj ≤ 4 := fun i m hm => (h.sim.row i m hm).tx4
  have hl : (s.retype tp c).last =
      endOf (s.retype tp c).tab.mods s.tab.awake (s.retype tp c).tab.mods.length := rfl
  have haw : s.tab.awake (q / 4) = 1 := by
    simp only [SendList.retype, List.getElem?_mapIdx, Option.map_eq_some_iff] at hm
    obtain ⟨m0, _, rfl⟩ := hm
    split at hon <;> exact of_decide_eq_true hon
  have := (endOf_ge _ s.tab.awake h4 (s.retype tp c).tab.mods.length).2 (q / 4) m (q % 4)
    (List.getElem?_eq_some_iff.mp hm).1 haw hm hq
  rw [← hl] at this
  omega

theorem retx_mem (env : Env) (js : List Nat) : ∀ r : Node × Err, (retx env js r).1.mem = r.1.mem := by
  induction js with
  | nil => intro r; rfl
  | cons j js ih =>
    intro r
    simp only [retx]
    split
    · rw [ih]
      generalize (r.1.rows j).txObj = k
      induction k with
      | zero => rfl
      | succ k ih2 =>
        rw [List.range_succ, List.foldl_append]
        simp only [List.foldl_cons, List.foldl_nil]
        generalize hq : (List.range k).foldl (fun r i => txCnfg env r.1 j i (r.1.rows j).nr) r = q at *
        rw [← ih2]
        simp only [txCnfg]
        split
        · rfl
        · split <;> rfl
    · exact ih _

theorem changeType_mem (env : Env) (n : Node) (tp : Nat) (typ : List Byte) : (changeType env n tp typ).1.mem = n.mem := by
  unfold changeType
  split
  · rfl
  · split
    · simp only
      split <;> exact retx_mem ..
    · rfl

/-- C127: after the type of an awake module has been changed, the next process request is answered - even if it
would not have been answered before.  The history may contain any number and type changes. -/
theorem C127_answered (env : Env) (he : EnvOk env) (mem : Nat → List Byte) (ops : List Op)
    (hok : (Node.init env (boot mem)).2 = E.ok) (ho : ∀ o ∈ ops, Numbering o)
    (hn : AllNamed env (Node.init env (boot mem)).1 ops) (tp : Nat) (typ : List Byte) (c : Row) :
    let n := Node.run env (Node.init env (boot mem)).1 ops
    let s := listRun env (Node.init env (boot mem)).1 SendList.empty ops
    Named n (.changeType tp typ) → s.alt tp = some c → c.typ.take 4 = typ.take 4 →
    let r := (Node.changeType env n tp typ).1
    ∃ n', ∀ k, 32 ≤ k → sendRun env k ⟨r.tx.reg, 0, env.garbage, r⟩ = some n' := by
  intro n s hc ha ht r
  have h : SimL env n s := SimL.run he.m8 ops ho (SimL.init he mem hok) hn
  have hr := h.changeType he.m8 tp typ hc
  simp only [SendList.step, ha, ht, if_true] at hr
  have hp := sends_of_noGap hr (retype_noGap tp c hr)
  unfold sendProcessData at hp
  exact ⟨_, fun k hk => (sendRun_stable env _ k hk).trans hp⟩

/-- C127: the answer consists of the frames of exactly the awake modules, in registration order, under their numbers;
those of the changed module have the lengths and data of its new type. -/
theorem C127_process_data (env : Env) (he : EnvOk env) (mem : Nat → List Byte) (ops : List Op)
    (hok : (Node.init env (boot mem)).2 = E.ok) (ho : ∀ o ∈ ops, Numbering o)
    (hn : AllNamed env (Node.init env (boot mem)).1 ops) (tp : Nat) (typ : List Byte) (c : Row) :
    let n := Node.run env (Node.init env (boot mem)).1 ops
    let s := listRun env (Node.init env (boot mem)).1 SendList.empty ops
    Named n (.changeType tp typ) → s.alt tp = some c → c.typ.take 4 = typ.take 4 →
    let r := (Node.changeType env n tp typ).1
    let l := s.tab.mods.mapIdx fun i m =>
      if i = tp then
        ({ typ := c.typ, nr := m.nr, txObj := c.txObj, txDlc := c.txDlc, tx := c.tx, main := c.txMain
           conv := c.txMainSync, on := true } : Mod)
      else { m with on := decide (s.tab.awake i = 1) }
    Convertible env n.mem l →
    ∃ (n' : Node) (evs : List Ev), sendProcessData env r = some n' ∧ n'.log = evs.reverse ++ r.log ∧
      evs.map frameOf = (replies env n.mem l).map some ∧ n'.ub = r.ub := by
  intro n s hc ha ht r l hconv
  have h0 := SimL.init he mem hok
  have h : SimL env n s := SimL.run he.m8 ops ho h0 hn
  have hr := h.changeType he.m8 tp typ hc
  simp only [SendList.step, ha, ht, if_true] at hr
  have hm : r.mem = n.mem := changeType_mem env n tp typ
  have hsome : (n.chg tp).isSome := by
    have := h.alt tp
    rw [ha] at this
    cases hx : n.chg tp with
    | none => rw [hx] at this; cases this
    | some _ => rfl
  have hl : (s.retype tp c).tab.mods = l := by
    simp only [SendList.retype, l]
    apply List.ext_getElem?
    intro i
    rw [List.getElem?_mapIdx, List.getElem?_mapIdx]
    congr 1
    funext m
    by_cases e : i = tp
    · simp only [e, if_true]
      rw [← h.sim.awake, (hc hsome).1]; rfl
    · simp only [e, if_false]
  have hu : NumOk s.tab.mods :=
    NumOk.listRun he.m8 ops ho h0 hn (by intro i m hm; simp [SendList.empty, Table.empty] at hm)
  have hu' : NumOk (s.retype tp c).tab.mods := by
    intro i m hm
    simp only [SendList.retype, List.getElem?_mapIdx, Option.map_eq_some_iff] at hm
    obtain ⟨m0, h0, rfl⟩ := hm
    have := hu i m0 h0
    split <;> exact this
  have key := replies_of_sends hr.sim hu' (sends_of_noGap hr (retype_noGap tp c hr)) he
    (by rw [hl, hm]; exact hconv)
  rw [hl, hm] at key
  exact key

/-! ## Examples and counterexamples -/

/-- a type `MDx` with one receive and `t` transmit objects of one byte, with its start-up conversions -/
def exOther (x : Byte) (t : Nat) : Row :=
  { exTpl x 1 t with txDlc := fun _ => 1, rxDlc := fun _ => 1, txMainSync := fun _ => .app 0, rxMainSync := fun _ => .app 0 }

/-- The first module gets number 6, after which process requests are not answered any more; type `MDC` is announced
for it. -/
def exTypeOps : List Op := exOps ++
  [.changeNr [77, 68, 65] 6 5, .changeTypeAdd [77, 68, 65] (exOther 67 1) (fun j => 140 + j) (fun j => 150 + j) false]

example : (∀ o ∈ exTypeOps, Numbering o) ∧ AllNamed exEnv (exInit exEnv) exTypeOps ∧
    ((listRun exEnv (exInit exEnv) SendList.empty exTypeOps).alt 0).map Row.typ = some [77, 68, 67] ∧
    sendProcessData exEnv (Node.run exEnv (exInit exEnv) exTypeOps) = none := by
  refine ⟨by simp [exTypeOps, exOps, Numbering, Basic, exTpl, exOther],
    by simp [exTypeOps, exOps, AllNamed, Named], by decide +kernel, by decide +kernel⟩

/-- a type change is allowed as soon as all registered modules are counted -/
theorem exNamed (ops : List Op) (ho : ∀ o ∈ ops, Numbering o) (hn : AllNamed exEnv (exInit exEnv) ops) (tp : Nat)
    (typ : List Byte) (hs : (Node.run exEnv (exInit exEnv) ops).silent tp = 1)
    (hl : (listRun exEnv (exInit exEnv) SendList.empty ops).tab.mods.length = (Node.run exEnv (exInit exEnv) ops).nrMod) :
    Named (Node.run exEnv (exInit exEnv) ops) (.changeType tp typ) := by
  refine fun _ => ⟨hs, fun i hi => Nat.lt_of_not_le fun hge => hi ?_⟩
  have h := SimL.run exEnv_ok.m8 ops ho (SimL.init exEnv_ok exMem (by decide +kernel)) hn
  exact (h.sim.free i (Nat.le_trans (Nat.le_of_eq hl) hge)).1

example : Named (Node.run exEnv (exInit exEnv) exTypeOps) (.changeType 0 [77, 68, 67]) :=
  exNamed exTypeOps (by simp [exTypeOps, exOps, Numbering, Basic, exTpl, exOther])
    (by simp [exTypeOps, exOps, AllNamed, Named]) 0 _ (by decide +kernel) (by decide +kernel)

/-- the frames sent in answer to a process request -/
def answer (env : Env) (n : Node) : Option (List Frame) :=
  (sendProcessData env n).map fun n' => (n'.log.take (n'.log.length - n.log.length)).reverse.filterMap frameOf

/-- after the type change the hanging device answers again, the changed module with the data of its new type -/
example : answer exEnv (Node.run exEnv (exInit exEnv) (exTypeOps ++ [.changeType 0 [77, 68, 67]])) =
    some [⟨0x414, 1, [150]⟩, ⟨0x420, 2, [130, 131]⟩, ⟨0x421, 2, [131, 132]⟩, ⟨0x422, 2, [132, 133]⟩] := by decide +kernel

/-- type `MDC` announced for the first module -/
def exOffer (t : Nat) : Op :=
  .changeTypeAdd [77, 68, 65] (exOther 67 t) (fun j => 140 + j) (fun j => 150 + j) false

/-- The second module has been set critical and does not transmit.  A type change of the first one makes it transmit
again, and not its own data: its conversions are switched off, so the frames contain the bytes of the frame before
(150) and what was in memory (0xAA). -/
theorem C127_counterexample_critical :
    answer exEnv (Node.run exEnv (exInit exEnv) (exOps ++ [.setCritical [77, 68, 66], exOffer 1])) =
      some [⟨0x410, 2, [110, 111]⟩, ⟨0x411, 2, [111, 112]⟩] ∧
    answer exEnv (Node.run exEnv (exInit exEnv) (exOps ++ [.setCritical [77, 68, 66], exOffer 1, .changeType 0 [77, 68, 67]])) =
      some [⟨0x410, 1, [150]⟩, ⟨0x420, 2, [150, 0xAA]⟩, ⟨0x421, 2, [150, 0xAA]⟩, ⟨0x422, 2, [150, 0xAA]⟩] := by
  decide +kernel

/-- The second module was made silent by the master and set active by the application; it transmits.  A type change of
the first one ends that. -/
theorem C127_counterexample_active :
    answer exEnv (Node.run exEnv (exInit exEnv) (exOps ++ [.silentAwake 1 0, .setActive [77, 68, 66], exOffer 1])) =
      some [⟨0x410, 2, [110, 111]⟩, ⟨0x411, 2, [111, 112]⟩, ⟨0x420, 2, [130, 131]⟩, ⟨0x421, 2, [131, 132]⟩,
            ⟨0x422, 2, [132, 133]⟩] ∧
    answer exEnv (Node.run exEnv (exInit exEnv)
        (exOps ++ [.silentAwake 1 0, .setActive [77, 68, 66], exOffer 1, .changeType 0 [77, 68, 67]])) =
      some [⟨0x410, 1, [150]⟩] := by
  decide +kernel

/-- The type of a silent module is changed to one with three objects of one byte instead of two of two bytes.  After
it is awakened, its frames have the old lengths (the second byte is what was in memory), and the third has identifier
0 and no data. -/
theorem C127_counterexample_silent :
    answer exEnv (Node.run exEnv (exInit exEnv)
        (exOps ++ [exOffer 3, .silentAwake 0 0, .changeType 0 [77, 68, 67], .silentAwake 0 1, .silentAwake 1 0])) =
      some [⟨0x410, 2, [150, 0xAA]⟩, ⟨0x411, 2, [151, 0xAA]⟩, ⟨0, 0, []⟩] := by
  decide +kernel

/-- a module which was never made silent gets a type whose announced start-up conversions are missing (`NULL`): the
next process request jumps to address 0 -/
theorem C127_counterexample_null :
    ((sendProcessData exEnv (Node.run exEnv (exInit exEnv) (exOps ++ [.changeTypeAdd [77, 68, 65] (exTpl 67 1 1)
        (fun j => 140 + j) (fun j => 150 + j) false, .changeType 0 [77, 68, 67]]))).map Node.ub) = some true := by
  decide +kernel

end LiCan
