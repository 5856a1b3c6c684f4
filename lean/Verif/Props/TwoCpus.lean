import Verif.Lemmas.Twin
import Verif.Props.Cpu2Mirror
import Verif.Props.NodeProcess
/-!
# Both CPUs of a device (properties C123, C124)

The main CPU (`Verif.Model.Slave`) and the monitor CPU (`Verif.Model.Cpu2`) get the same system messages from the bus
and their applications register the same modules.  The drivers, the data messages each of them receives, the times and
everything else may differ.
-/
namespace LiCan

namespace Spec

/-- the history of a device in normal use: each CPU is initialised once, the main CPU's numbers and types do not change,
the registrations of the monitor CPU succeed, and the same things concern both tables -/
def Device (env env' : Env) (s : Slave) (c : Cpu2) : Prop :=
  ∃ mem mem' baud baud' is js c0,
    (Slave.init env (Slave.boot mem) baud).2 = E.ok ∧ (∀ i ∈ is, Slave.BasicIn env i) ∧
    Slave.run env (Slave.init env (Slave.boot mem) baud).1 is = some s ∧
    Cpu2.step env' (Cpu2.boot mem') (.api (.init baud')) = some c0 ∧ Cpu2.Fine env' c0 js ∧ Cpu2.run env' c0 js = some c ∧
    is.flatMap (tabIn env) = js.flatMap (tabIn2 env')

/-- the monitor CPU receives these frames one after the other, each in a message object that lets it through; the rest
of the eight data bytes is arbitrary -/
inductive Hears (env : Env) : Cpu2 → List Frame → Cpu2 → Prop
  | nil (c : Cpu2) : Hears env c [] c
  | cons {c c1 c' : Cpu2} {f : Frame} {fs : List Frame} (now obj : Nat) (rest : List Byte) (ht : Takes env c.s.node obj f.id)
      (hs : Cpu2.step env c (.api (.frame now obj f.dlc f.id (f.data ++ rest))) = some c1) (h : Hears env c1 fs c') :
      Hears env c (f :: fs) c'

end Spec

namespace Twin
open Node Slave Spec

/-! ## C123 -/

/-- **C123**: whatever else happens to the two CPUs and whatever their drivers do, after the same calls and system
messages both have the same modules: type, number, number and lengths of the data objects, data pointers and
conversions of every row. -/
theorem C123_same_table (env env' : Env) (b : Build env env') (mem mem' : Nat → List Byte) (is : List In) (js : List Cpu2.CIn)
    (s : Slave) (c : Cpu2) (hs : Slave.run env (Slave.boot mem) is = some s) (hc : Cpu2.run env' (Cpu2.boot mem') js = some c)
    (h : is.flatMap (tabIn env) = js.flatMap (tabIn2 env')) (t : Nat) : fixedPart (s.node.rows t) = fixedPart (c.s.node.rows t) :=
  (Pair.run (v := False) (fun x => x.elim) b _ is js _ _ _ _ (ReqInv.boot mem) ⟨fun _ => rfl, rfl, fun _ => rfl⟩ h rfl hs hc).rows t

/-- **C123**: without a number voter they also have the same silent/awake states.  `_partial`: with a voter a CPU whose
message objects are used up takes the new number but not the voted state, see the counterexample. -/
theorem C123_same_silent_partial (env env' : Env) (b : Build env env') (hv : env.voter = none) (mem mem' : Nat → List Byte) (is : List In)
    (js : List Cpu2.CIn) (s : Slave) (c : Cpu2) (hs : Slave.run env (Slave.boot mem) is = some s)
    (hc : Cpu2.run env' (Cpu2.boot mem') js = some c) (h : is.flatMap (tabIn env) = js.flatMap (tabIn2 env')) :
    s.node.silent = c.s.node.silent :=
  (Pair.run (v := True) (fun _ => hv) b _ is js _ _ _ _ (ReqInv.boot mem) ⟨fun _ => rfl, rfl, fun _ => rfl⟩ h rfl hs hc).silent trivial

/-- number 5 becomes number 7 -/
def exRenum : In := .frame 40 2 8 0x012 [0x20, 0, 7, 0, 0, 0, 0, 0]
/-- the histories of both CPUs: a module with two receive and three transmit objects -/
def exMainTwo : List In := [.init 250, .table (.add (exTpl 65 2 3) 5 (fun j => 100 + j) (fun j => 110 + j))]
def exMonTwo : List Cpu2.CIn := [.api (.init 250), Cpu2.exAdd 65 2 3 5]
/-- eleven message objects; the voter makes a renumbered module silent -/
def exVoter : Env := { exSmall with voter := some fun _ _ _ => .validButSilent }

/-- C123: after the number change both tables have number 7; a process request, a data message and the clock do not
matter -/
example :
    let is := exMainTwo ++ [.frame 10 0 2 0 [3, 0xFF], exRenum]
    let js := exMonTwo ++ [.process 7 .active .none, .api exRenum, .api (.frame 90 5 2 0x418 [1, 2, 0, 0, 0, 0, 0, 0])]
    is.flatMap (tabIn exEnv) = js.flatMap (tabIn2 exEnv) ∧
    (Slave.run exEnv (Slave.boot exMem) is).map (fun s => ((s.node.rows 0).nr, (s.node.rows 0).typ)) = some (7, [77, 68, 65]) ∧
    (Cpu2.run exEnv (Cpu2.boot exMem) js).map (fun c => ((c.s.node.rows 0).nr, (c.s.node.rows 0).typ)) = some (7, [77, 68, 65]) := by
  refine ⟨rfl, ?_, ?_⟩ <;> decide +kernel

/-- **C123**, the voter: every registration succeeds and no driver call fails, and the main CPU has made the module
silent while the monitor CPU keeps it awake. -/
theorem C123_counterexample_voter : (∀ k, exVoter.hwOk k = true) ∧
    (exMainTwo ++ [exRenum]).flatMap (tabIn exVoter) = (exMonTwo ++ [Cpu2.CIn.api exRenum]).flatMap (tabIn2 exVoter) ∧
    ((Cpu2.run exVoter (Cpu2.boot exMem) exMonTwo).map fun c => c.s.node.errq.count) = some 0 ∧
    ((Slave.run exVoter (Slave.boot exMem) (exMainTwo ++ [exRenum])).map fun s => ((s.node.rows 0).nr, s.node.silent 0)) = some (7, 0) ∧
    ((Cpu2.run exVoter (Cpu2.boot exMem) (exMonTwo ++ [.api exRenum])).map fun c => ((c.s.node.rows 0).nr, c.s.node.silent 0)) =
      some (7, 1) := by
  refine ⟨fun _ => rfl, rfl, ?_, ?_, ?_⟩ <;> decide +kernel

/-! ## C124 -/

theorem Device.pair {env env' : Env} (b : Build env env') {s : Slave} {c : Cpu2} (h : Device env env' s c) : Pair False s.node c.s.node := by
  obtain ⟨mem, mem', baud, baud', is, js, c0, -, -, h3, h4, -, h6, h7⟩ := h
  have r1 : Slave.run env (Slave.boot mem) (.init baud :: is) = some s := by
    simp only [Slave.run, Slave.step, Option.bind_some]; exact h3
  have r2 : Cpu2.run env' (Cpu2.boot mem') (.api (.init baud') :: js) = some c := by
    simp only [Cpu2.run, h4, Option.bind_some]; exact h6
  have r3 : (In.init baud :: is).flatMap (tabIn env) = (Cpu2.CIn.api (.init baud') :: js).flatMap (tabIn2 env') := by
    rw [List.flatMap_cons, List.flatMap_cons, h7]; rfl
  have p0 : Pair False (Slave.boot mem).node (Cpu2.boot mem').s.node := ⟨fun _ => rfl, rfl, fun _ => rfl⟩
  exact Pair.run (v := False) (fun x => x.elim) b _ _ _ _ _ _ _ (ReqInv.boot mem) p0 r3 rfl r1 r2

/-- a CPU hearing transmit objects of its modules, no two of them the same -/
theorem hears {env : Env} (hn : env.nObj ≤ 32) (conv : Nat → Nat → Nat) : ∀ (fs : List Frame) (c c' : Cpu2), Cpu2.Rig env Cpu2.All c → Numbered env c.s.node →
    (∀ t i, i < (c.s.node.rows t).txObj → (c.x t).conv i = .app (conv t i)) →
    (∀ t i t' i', i < (c.s.node.rows t).txObj → i' < (c.s.node.rows t').txObj → (c.s.node.rows t).tx i = (c.s.node.rows t').tx i' → t = t' ∧ i = i') →
    (∀ f ∈ fs, ∃ t i, i < (c.s.node.rows t).txObj ∧ f.id = slaveId (c.s.node.rows t).nr i) → (fs.map Frame.id).Nodup → Hears env c fs c' →
    Light c.s.node c'.s.node ∧ c'.x = c.x ∧
    (∀ p, (∀ t i, i < (c.s.node.rows t).txObj → slaveId (c.s.node.rows t).nr i ∈ fs.map Frame.id → p ≠ (c.s.node.rows t).tx i) →
      c'.s.node.mem p = c.s.node.mem p) ∧
    (∀ f ∈ fs, ∀ t i, i < (c.s.node.rows t).txObj → f.id = slaveId (c.s.node.rows t).nr i →
      ((c.s.node.rows t).txObjSync ≠ 0 ∧ (env.chk = true → f.dlc = (c.s.node.rows t).rxDlcSync i) → ∃ rest,
        c'.s.node.mem ((c.s.node.rows t).tx i) = (env.rxConv (conv t i) (f.data ++ rest) f.dlc (c.s.node.mem ((c.s.node.rows t).tx i))).1) ∧
      (¬ ((c.s.node.rows t).txObjSync ≠ 0 ∧ (env.chk = true → f.dlc = (c.s.node.rows t).rxDlcSync i)) →
        c'.s.node.mem ((c.s.node.rows t).tx i) = c.s.node.mem ((c.s.node.rows t).tx i)))
  | [], c, c', _, _, _, _, _, _, hr => by
    cases hr
    exact ⟨.refl _, rfl, fun _ _ => rfl, fun f hf => by simp at hf⟩
  | f :: fs, c, c', h, hnum, hk, hp, hf, hd, hr => by
    cases hr with
    | cons now obj rest ht hs hr =>
    rename_i c1
    obtain ⟨t0, i0, hi0, hid⟩ := hf f List.mem_cons_self
    rw [hid] at ht hs
    obtain ⟨-, e, -⟩ := Cpu2.main_frame hn h hnum hi0 (hk t0 i0 hi0) ht hs
    have hl : Light c.s.node c1.s.node := by
      rw [e]; split
      · exact ⟨rfl, rfl, rfl, rfl, rfl, rfl, rfl, rfl⟩
      · exact .refl _
    have hx : c1.x = c.x := by rw [e]; split <;> rfl
    have hmem : ∀ p, p ≠ (c.s.node.rows t0).tx i0 → c1.s.node.mem p = c.s.node.mem p := by
      intro p hp; rw [e]; split
      · exact upd_other _ _ hp
      · rfl
    have hm0 : c1.s.node.mem ((c.s.node.rows t0).tx i0) = if (c.s.node.rows t0).txObjSync ≠ 0 ∧ (env.chk = true → f.dlc = (c.s.node.rows t0).rxDlcSync i0) then
        (env.rxConv (conv t0 i0) (f.data ++ rest) f.dlc (c.s.node.mem ((c.s.node.rows t0).tx i0))).1 else c.s.node.mem ((c.s.node.rows t0).tx i0) := by
      rw [e]
      by_cases q : (c.s.node.rows t0).txObjSync ≠ 0 ∧ (env.chk = true → f.dlc = (c.s.node.rows t0).rxDlcSync i0)
      · rw [if_pos q, if_pos q]; exact upd_same ..
      · rw [if_neg q, if_neg q]
    clear e
    have hd' := (List.nodup_cons.1 (by simpa using hd : (f.id :: fs.map Frame.id).Nodup))
    obtain ⟨a1, a2, a3, a4⟩ := hears hn conv fs c1 c' (h.light hl hx) (by unfold Numbered; rw [hl.rows]; exact hnum) (by rw [hl.rows, hx]; exact hk)
      (by rw [hl.rows]; exact hp) (by rw [hl.rows]; exact fun g hg => hf g (List.mem_cons_of_mem _ hg)) hd'.2 hr
    rw [hl.rows] at a3 a4
    have inj : ∀ t i, i < (c.s.node.rows t).txObj → ∀ t' i', i' < (c.s.node.rows t').txObj →
        slaveId (c.s.node.rows t).nr i = slaveId (c.s.node.rows t').nr i' → t = t' ∧ i = i' := by
      intro t i hi t' i' hi' q
      have lt : ∀ t i, i < (c.s.node.rows t).txObj → t < env.maxMod := by
        intro t i hi
        rcases Nat.lt_or_ge t env.maxMod with e | e
        · exact e
        · have := h.free t (h.big t e); omega
      have n1 := hnum t (lt t i hi) (by omega)
      have n2 := hnum t' (lt t' i' hi') (by omega)
      have m1 := (h.max t).1
      have m2 := (h.max t').1
      unfold slaveId at q
      have e1 : (c.s.node.rows t').nr = (c.s.node.rows t).nr := by omega
      exact ⟨(n1.2.2 t' (lt t' i' hi') (by omega) e1).symm, by omega⟩
    refine ⟨hl.trans a1, a2.trans hx, fun p hq => ?_, fun g hg t i hi hgi => ?_⟩
    · rw [a3 p (fun t i hi hin => hq t i hi (by rw [List.map_cons]; exact List.mem_cons_of_mem _ hin))]
      exact hmem p (hq t0 i0 hi0 (by rw [List.map_cons, hid]; exact List.mem_cons_self))
    · rcases List.mem_cons.1 hg with rfl | hg
      · obtain ⟨rfl, rfl⟩ := inj t i hi t0 i0 hi0 (by rw [← hgi, hid])
        have keep : c'.s.node.mem ((c.s.node.rows t).tx i) = c1.s.node.mem ((c.s.node.rows t).tx i) := by
          refine a3 _ fun t' i' hi' hin q => ?_
          obtain ⟨rfl, rfl⟩ := hp t i t' i' hi hi' q
          exact hd'.1 (by rw [hgi]; exact hin)
        rw [keep, hm0]
        exact ⟨fun q => ⟨rest, by rw [if_pos q]⟩, fun q => by rw [if_neg q]⟩
      · have hne : (c.s.node.rows t).tx i ≠ (c.s.node.rows t0).tx i0 := by
          intro q
          obtain ⟨rfl, rfl⟩ := hp t i t0 i0 hi hi0 q
          exact hd'.1 (by rw [hid, ← hgi]; exact List.mem_map_of_mem hg)
        have := a4 g hg t i hi hgi
        rw [hmem _ hne] at this
        exact this

/-- the identifiers of an answer are all different -/
theorem replies_nodup {env : Env} {n : Node} {t : Table} (h : Sim env n t) (hn : NrInv t.mods) : ((replies env n.mem t.mods).map Frame.id).Nodup := by
  have hpos : ∀ i (m : Mod), t.mods[i]? = some m → 1 ≤ m.nr := fun i m hm => by rcases hn.range i m hm with q | q <;> omega
  have h4 : ∀ i (m : Mod), t.mods[i]? = some m → m.txObj ≤ 4 := fun i m hm => (h.row i m hm).tx4
  have hd := hn.dist
  clear h hn
  generalize t.mods = l at *
  induction l with
  | nil => simp [replies]
  | cons m l ih =>
    have ih := ih (fun i m hm => hpos (i + 1) m hm) (fun i m hm => h4 (i + 1) m hm) (fun i j m m' hi hj hij => hd (i + 1) (j + 1) m m' hi hj (by omega))
    have hm4 := h4 0 m rfl
    have hm1 := hpos 0 m rfl
    unfold replies at ih ⊢
    rw [List.flatMap_cons, List.map_append, List.nodup_append]
    refine ⟨?_, ih, ?_⟩
    · split
      · rw [List.map_map, List.nodup_iff_pairwise_ne, List.pairwise_map]
        refine List.Pairwise.imp (R := fun a b => a ≠ b) ?_ (List.nodup_iff_pairwise_ne.1 List.nodup_range)
        intro a b q; simp only [Function.comp]; omega
      · simp
    · intro a ha b hb
      split at ha
      · simp only [List.map_map, List.mem_map, List.mem_range, Function.comp] at ha
        obtain ⟨o, ho, rfl⟩ := ha
        simp only [List.mem_map, List.mem_flatMap] at hb
        obtain ⟨f, ⟨m', hm', hf⟩, rfl⟩ := hb
        obtain ⟨j, hj⟩ := List.mem_iff_getElem?.1 hm'
        split at hf
        · simp only [List.mem_map, List.mem_range] at hf
          obtain ⟨o', ho', rfl⟩ := hf
          have := hd 0 (j + 1) m m' rfl (by simpa using hj) (by omega)
          have := hpos (j + 1) m' (by simpa using hj)
          have := h4 (j + 1) m' (by simpa using hj)
          dsimp only
          omega
        · simp at hf
      · simp at ha

/-- the object belongs to a module that takes part in the process data -/
def _root_.LiCan.Spec.SentBy (n : Node) (t i : Nat) : Prop := i < (n.rows t).txObj ∧ (n.rows t).txObjSync ≠ 0

/-- the application's conversions make the bytes that are sent; every object that takes part in the process data has one -/
def _root_.LiCan.Spec.Sends (env : Env) (n : Node) : Prop :=
  ∀ t i, SentBy n t i → (n.rows t).tx i ≠ 0 ∧ ∃ k, (n.rows t).txMainSync i = .app k ∧ ∀ buf,
    (env.txConv k (n.mem ((n.rows t).tx i)) ((n.rows t).txDlc i) buf).2 = E.ok ∧
    (env.txConv k (n.mem ((n.rows t).tx i)) ((n.rows t).txDlc i) buf).1.take ((n.rows t).txDlc i) =
      (env.txConv k (n.mem ((n.rows t).tx i)) ((n.rows t).txDlc i) env.garbage).1.take ((n.rows t).txDlc i)

/-- **C124**, end to end: the main CPU answers a process request and the monitor CPU of the device receives the frames
of this answer.  Afterwards the monitor CPU's copy of every transmit object the main CPU has sent is what its own
conversion makes of the bytes of the main CPU's data, and nothing else has changed.

`_partial`: only where the monitor CPU has the module switched on too (it may not have, `C124_counterexample_switched`),
and with the length check only where transmit and receive object have the same length (C121). -/
theorem C124_mirror_partial (env env' : Env) (he : EnvOk env) (b : Build env env') (hh : ∀ k, env'.hwOk k = true) (h10 : 10 < env'.nObj)
    (hn : env'.nObj ≤ 32) (s : Slave) (c : Cpu2) (hd : Device env env' s c) (hnum : Numbered env s.node) (hsend : Sends env s.node)
    (conv : Nat → Nat → Nat) (hk : ∀ t i, i < (s.node.rows t).txObj → (c.x t).conv i = .app (conv t i))
    (hp : ∀ t i t' i', i < (s.node.rows t).txObj → i' < (s.node.rows t').txObj → (s.node.rows t).tx i = (s.node.rows t').tx i' → t = t' ∧ i = i') :
    ∃ (n' : Node) (evs : List Ev) (fs : List Frame), s.node.sendProcessData env = some n' ∧ n'.log = evs.reverse ++ s.node.log ∧ evs.map frameOf = fs.map some ∧
      ∀ c', Hears env' c fs c' →
        c'.s.node.rows = c.s.node.rows ∧
        (∀ t i, SentBy s.node t i → ∃ k, (s.node.rows t).txMainSync i = .app k ∧
          ((c.s.node.rows t).txObjSync ≠ 0 → (env'.chk = true → (s.node.rows t).txDlc i = (c.s.node.rows t).rxDlcSync i) → ∃ rest,
            c'.s.node.mem ((s.node.rows t).tx i) = (env'.rxConv (conv t i)
              ((env.txConv k (s.node.mem ((s.node.rows t).tx i)) ((s.node.rows t).txDlc i) env.garbage).1.take ((s.node.rows t).txDlc i) ++ rest)
              ((s.node.rows t).txDlc i) (c.s.node.mem ((s.node.rows t).tx i))).1)) ∧
        (∀ p, (∀ t i, SentBy s.node t i → p ≠ (s.node.rows t).tx i) → c'.s.node.mem p = c.s.node.mem p) := by
  have hpair := Device.pair b hd
  have hrow : ∀ t, (s.node.rows t).typ = (c.s.node.rows t).typ ∧ (s.node.rows t).nr = (c.s.node.rows t).nr ∧ (s.node.rows t).txObj = (c.s.node.rows t).txObj ∧
      (s.node.rows t).rxObj = (c.s.node.rows t).rxObj ∧ (s.node.rows t).tx = (c.s.node.rows t).tx := by
    intro t
    have q := hpair.rows t
    exact ⟨by have := congrArg Row.typ q; exact this, by have := congrArg Row.nr q; exact this, by have := congrArg Row.txObj q; exact this,
      by have := congrArg Row.rxObj q; exact this, by have := congrArg Row.tx q; exact this⟩
  obtain ⟨mem, mem', baud, baud', is, js, c0, h1, h2, h3, h4, h5, h6, -⟩ := hd
  have hrig : Cpu2.Rig env' Cpu2.All c := MonLife.rig hh h10 hn (by have := he.m8; have := b.maxMod; omega) ⟨mem', baud', js, c0, h4, h5, h6⟩
  obtain ⟨-, t, ht, hnr⟩ := SReach.inv he ⟨mem, baud, is, h1, h2, h3⟩
  have hsim := ht.sim
  have hget : ∀ tp i, SentBy s.node tp i → ∃ m, t.mods[tp]? = some m ∧ m.on = true ∧ i < m.txObj := by
    intro tp i hi
    obtain ⟨hi, hon⟩ := hi
    rcases hm : t.mods[tp]? with _ | m
    · have := (hsim.free tp (List.getElem?_eq_none_iff.1 hm)).2.1; omega
    · have r := hsim.row tp m hm
      rw [r.txObj] at hi
      rw [r.txs trivial] at hon
      refine ⟨m, rfl, ?_, hi⟩
      by_cases q : m.on = true
      · exact q
      · rw [if_neg q] at hon; exact absurd rfl hon
  have hconv : Convertible env s.node.mem t.mods := by
    intro m hm hon o ho
    obtain ⟨tp, hm⟩ := List.mem_iff_getElem?.1 hm
    have r := hsim.row tp m hm
    obtain ⟨z, k, a, b⟩ := hsend tp o ⟨by rw [r.txObj]; exact ho, by rw [r.txs trivial, if_pos hon]; omega⟩
    rw [r.conv o ho] at a
    rw [r.tx] at z
    rw [r.tx, r.txDlc] at b
    exact ⟨z, k, a, b⟩
  obtain ⟨n', evs, g1, g2, g3, -⟩ := replies_of_sim hsim hnr he hconv
  refine ⟨n', evs, _, g1, g2, g3, fun c' hc' => ?_⟩
  have hin : ∀ f, f ∈ replies env s.node.mem t.mods ↔ ∃ (tp : Nat) (m : Mod) (o : Nat), t.mods[tp]? = some m ∧ m.on = true ∧ o < m.txObj ∧
      f = ⟨0x400 + 4 * (m.nr - 1) + o, m.txDlc o, content env s.node.mem env.garbage m o⟩ := by
    intro f
    unfold replies
    rw [List.mem_flatMap]
    constructor
    · rintro ⟨m, hm, hf⟩
      obtain ⟨tp, hm⟩ := List.mem_iff_getElem?.1 hm
      split at hf
      · rename_i q
        simp only [List.mem_map, List.mem_range] at hf
        obtain ⟨o, ho, rfl⟩ := hf
        exact ⟨tp, m, o, hm, q, ho, rfl⟩
      · simp at hf
    · rintro ⟨tp, m, o, hm, q, ho, rfl⟩
      refine ⟨m, List.mem_of_getElem? hm, ?_⟩
      rw [if_pos q]
      exact List.mem_map.2 ⟨o, List.mem_range.2 ho, rfl⟩
  have hnum' : Numbered env' c.s.node := by
    intro tp htp q
    obtain ⟨a1, a2, a3⟩ := hnum tp (by rw [← b.maxMod]; exact htp) (by rw [(hrow tp).2.2.1, (hrow tp).2.2.2.1]; exact q)
    rw [(hrow tp).2.1] at a1 a2 a3
    refine ⟨a1, a2, fun t' ht' q' e => a3 t' (by rw [← b.maxMod]; exact ht') (by rw [(hrow t').2.2.1, (hrow t').2.2.2.1]; exact q') (by rw [(hrow t').2.1]; exact e)⟩
  obtain ⟨l1, -, l3, l4⟩ := hears hn conv (replies env s.node.mem t.mods) c c' hrig hnum'
    (fun t i hi => hk t i (by rw [(hrow t).2.2.1]; exact hi))
    (fun t i t' i' hi hi' e => hp t i t' i' (by rw [(hrow t).2.2.1]; exact hi) (by rw [(hrow t').2.2.1]; exact hi') (by rw [(hrow t).2.2.2.2, (hrow t').2.2.2.2]; exact e))
    (fun f hf => by
      obtain ⟨tp, m, o, hm, q, ho, rfl⟩ := (hin f).1 hf
      have r := hsim.row tp m hm
      refine ⟨tp, o, by rw [← (hrow tp).2.2.1, r.txObj]; exact ho, ?_⟩
      rw [← (hrow tp).2.1, r.nr]; rfl)
    (replies_nodup hsim hnr) hc'
  refine ⟨l1.rows, fun tp i hi => ?_, fun p hq => ?_⟩
  · obtain ⟨-, k, hk1, -⟩ := hsend tp i hi
    refine ⟨k, hk1, fun hon hlen => ?_⟩
    obtain ⟨m, hm, q, ho⟩ := hget tp i hi
    have r := hsim.row tp m hm
    have hf := (hin _).2 ⟨tp, m, i, hm, q, ho, rfl⟩
    have key := (l4 _ hf tp i (by rw [← (hrow tp).2.2.1, r.txObj]; exact ho) (by rw [← (hrow tp).2.1, r.nr]; rfl)).1
      ⟨hon, fun hc => by rw [← hlen hc, r.txDlc]⟩
    obtain ⟨rest, key⟩ := key
    refine ⟨rest, ?_⟩
    rw [(hrow tp).2.2.2.2, key]
    have hc1 : m.conv i = .app k := by rw [← r.conv i ho]; exact hk1
    have e1 : content env s.node.mem env.garbage m i = (env.txConv k (s.node.mem (m.tx i)) (m.txDlc i) env.garbage).1.take (m.txDlc i) := by
      unfold content; rw [hc1]
    dsimp only
    rw [e1, ← (hrow tp).2.2.2.2, r.tx, r.txDlc]
  · refine l3 p fun tp i hi hmem => ?_
    obtain ⟨f, hf, hid⟩ := List.mem_map.1 hmem
    obtain ⟨tp', m, o, hm, q, ho, rfl⟩ := (hin f).1 hf
    have r := hsim.row tp' m hm
    have hti : o < (c.s.node.rows tp').txObj := by rw [← (hrow tp').2.2.1, r.txObj]; exact ho
    have lt : ∀ t i, i < (c.s.node.rows t).txObj → t < env'.maxMod := by
      intro t i hi
      rcases Nat.lt_or_ge t env'.maxMod with e | e
      · exact e
      · have := hrig.free t (hrig.big t e); omega
    have n1 := hnum' tp (lt tp i hi) (by omega)
    have n2 := hnum' tp' (lt tp' o hti) (by omega)
    have m1 := (hrig.max tp).1
    have m2 := (hrig.max tp').1
    have en : m.nr = (c.s.node.rows tp').nr := by rw [← (hrow tp').2.1, r.nr]
    dsimp only at hid
    unfold slaveId at hid
    have et : tp' = tp := n1.2.2 tp' (lt tp' o hti) (by omega) (by omega)
    subst et
    have ei : o = i := by omega
    subst ei
    rw [← (hrow tp').2.2.2.2]
    exact hq tp' o ⟨by rw [r.txObj]; exact ho, by rw [r.txs trivial, if_pos q]; omega⟩

/-- the memory of the monitor CPU before it has heard anything -/
def exBlank : Nat → List Byte := fun _ => [9, 9]
/-- the answer to a process request arrives at the monitor CPU -/
def exAnswer : List Cpu2.CIn := [.api (.frame 70 1 2 0x410 [110, 111, 1, 2]), .api (.frame 71 4 2 0x411 [111, 112])]

/-- C124: a device in normal use and the answer of its main CPU (of the third object the module has no receive object
of the same length, C121); the monitor CPU takes the first two frames over -/
example : (∃ s c, Device exEnv exEnv s c) ∧
    (Slave.run exEnv (Slave.boot exMem) exMainTwo).map (fun s => (s.node.sendProcessData exEnv).map fun n => n.log.filterMap frameOf) =
      some (some [⟨0x412, 2, [112, 113]⟩, ⟨0x411, 2, [111, 112]⟩, ⟨0x410, 2, [110, 111]⟩]) ∧
    (Cpu2.run exEnv (Cpu2.boot exBlank) (exMonTwo ++ exAnswer)).map (fun c => (c.s.node.mem 110, c.s.node.mem 111, c.s.node.mem 112)) =
      some ([110, 111], [111, 112], [9, 9]) := by
  refine ⟨?_, by decide +kernel, by decide +kernel⟩
  have h1 : (Slave.run exEnv (Slave.init exEnv (Slave.boot exMem) 250).1 [.table (.add (exTpl 65 2 3) 5 (fun j => 100 + j) (fun j => 110 + j))]).isSome = true := rfl
  have h2 : (Cpu2.run exEnv Cpu2.exStart [Cpu2.exAdd 65 2 3 5]).isSome = true := by decide +kernel
  obtain ⟨s, h1⟩ := Option.isSome_iff_exists.1 h1
  obtain ⟨c, h2⟩ := Option.isSome_iff_exists.1 h2
  refine ⟨s, c, exMem, exMem, 250, 250, _, _, Cpu2.exStart, by decide +kernel, ?_, h1, rfl, Cpu2.fineB_fine _ _ _ (by decide +kernel), h2, rfl⟩
  intro i hi
  simp only [List.mem_singleton] at hi
  subst hi
  simp [BasicIn, Basic, exTpl]

/-- **C124**, the switches: a device with eleven message objects per CPU has its module switched off (`can_config_set_critical`)
and gets another number.  All registrations succeed and no driver call fails.  The main CPU takes part in the process
data again after the number change, the monitor CPU does not: the main CPU's answer does not reach its copy. -/
theorem C124_counterexample_switched :
    let is := exMainTwo ++ [.table (.setCritical [77, 68, 65]), exRenum]
    let js : List Cpu2.CIn := exMonTwo ++ [.api (.table (.setCritical [77, 68, 65])), .api exRenum]
    (∀ k, exSmall.hwOk k = true) ∧ is.flatMap (tabIn exSmall) = js.flatMap (tabIn2 exSmall) ∧
    (Slave.run exSmall (Slave.boot exMem) is).map (fun s => ((s.node.rows 0).txObjSync,
      (s.node.sendProcessData exSmall).map fun n => n.log.filterMap frameOf)) =
      some (3, some [⟨0x41A, 2, [112, 113]⟩, ⟨0x419, 2, [111, 112]⟩, ⟨0x418, 2, [110, 111]⟩]) ∧
    (Cpu2.run exSmall (Cpu2.boot exBlank) (js ++ [.api (.frame 70 1 2 0x418 [110, 111])])).map
      (fun c => ((c.s.node.rows 0).txObjSync, (c.s.node.hw.defs 1).map ObjDef.id, c.s.node.mem 110)) = some (0, some 0x418, [9, 9]) := by
  refine ⟨fun _ => rfl, rfl, ?_, ?_⟩ <;> decide +kernel

end Twin
end LiCan
