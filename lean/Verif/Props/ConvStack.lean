import Verif.Props.Conv
import Verif.Props.NodeProcess
import Verif.Props.Sync
/-! # C91: numbers of the application on the bus -/
namespace LiCan
open Node Spec AppConv

/-- the eight bytes of a message buffer -/
def pad8 (b : List Byte) : List Byte := (b ++ List.replicate 8 0).take 8

theorem pad8_length (b : List Byte) : (pad8 b).length = 8 := by
  unfold pad8; simp

/-- A platform with byte order `le` whose application registers the example conversions: 0 for 16-bit, 1 for
32-bit numbers. -/
structure ExampleConversions (env : Env) (le : Bool) : Prop where
  tx16 : ∀ app dlc buf, env.txConv 0 app dlc buf = ((txU16 le app dlc (pad8 buf)).getD (pad8 buf), E.ok)
  tx32 : ∀ app dlc buf, env.txConv 1 app dlc buf = ((txU32 le app dlc (pad8 buf)).getD (pad8 buf), E.ok)
  rx16 : ∀ can dlc app, env.rxConv 0 can dlc app = ((rxU16 le can dlc app).getD app, E.ok)
  rx32 : ∀ can dlc app, env.rxConv 1 can dlc app = (((rxU32 le can dlc app).map Prod.snd).getD app, E.ok)

/-- bytes per number -/
def width (k : Nat) : Nat := if k = 0 then 2 else 4

private theorem flat_be (w : Nat) (vs : List Nat) : (vs.flatMap (be w)).length = w * vs.length := by
  have hb : ∀ n v, (be n v).length = n := by
    intro n
    induction n with
    | zero => intro; rfl
    | succ n ih => intro v; simp [be, ih]
  induction vs with
  | nil => simp
  | cons v vs ih => rw [List.flatMap_cons, List.length_append, ih, hb, List.length_cons, Nat.mul_add]; omega

private theorem flat_native (le : Bool) (w : Nat) (vs : List Nat) : (vs.flatMap (native le w)).length = w * vs.length := by
  rw [← flat_be w vs]
  induction vs with
  | nil => rfl
  | cons v vs ih =>
    rw [List.flatMap_cons, List.flatMap_cons, List.length_append, List.length_append, ih]
    congr 1
    unfold native; split <;> simp

theorem tx_numbers {env : Env} {le : Bool} (h : ExampleConversions env le) {k : Nat} (hk : k ≤ 1) (vs : List Nat) (r buf : List Byte)
    (h8 : width k * vs.length ≤ 8) :
    env.txConv k (vs.flatMap (native le (width k)) ++ r) (width k * vs.length) buf =
      (vs.flatMap (be (width k)) ++ (pad8 buf).drop (width k * vs.length), E.ok) := by
  have hp : pad8 buf = (pad8 buf).take (width k * vs.length) ++ (pad8 buf).drop (width k * vs.length) :=
    (List.take_append_drop _ _).symm
  have hl : ((pad8 buf).take (width k * vs.length)).length = width k * vs.length := by
    rw [List.length_take, pad8_length]; omega
  generalize (pad8 buf).take (width k * vs.length) = ys at *
  generalize (pad8 buf).drop (width k * vs.length) = d at *
  match k with
  | 0 =>
    show env.txConv 0 (vs.flatMap (native le 2) ++ r) (2 * vs.length) buf = (vs.flatMap (be 2) ++ d, E.ok)
    rw [h.tx16, hp, (C87_uint16 le vs (2 * vs.length) (by omega) r ys d hl).1]
    rfl
  | 1 =>
    show env.txConv 1 (vs.flatMap (native le 4) ++ r) (4 * vs.length) buf = (vs.flatMap (be 4) ++ d, E.ok)
    rw [h.tx32, hp, (C87_uint32 le vs (4 * vs.length) (by omega) r ys d hl).1]
    rfl
  | k + 2 => omega

theorem rx_numbers {env : Env} {le : Bool} (h : ExampleConversions env le) {k : Nat} (hk : k ≤ 1) (vs : List Nat) (r ys d : List Byte)
    (hy : ys.length = width k * vs.length) :
    (env.rxConv k (vs.flatMap (be (width k)) ++ r) (width k * vs.length) (ys ++ d)).1 =
      vs.flatMap (native le (width k)) ++ d := by
  match k with
  | 0 =>
    show (env.rxConv 0 (vs.flatMap (be 2) ++ r) (2 * vs.length) (ys ++ d)).1 = _
    rw [h.rx16, (C87_uint16 le vs (2 * vs.length) (by omega) r ys d hy).2]
    rfl
  | 1 =>
    show (env.rxConv 1 (vs.flatMap (be 4) ++ r) (4 * vs.length) (ys ++ d)).1 = _
    rw [h.rx32, (C87_uint32 le vs (4 * vs.length) (by omega) r ys d hy).2]
    rfl
  | k + 2 => omega

/-- Transmit object `o` of module `m` uses conversion `k` and holds the numbers `vs`, in the byte order of the
platform, and the object is as long as these. -/
structure HoldsNumbers (le : Bool) (mem : Nat → List Byte) (m : Mod) (o k : Nat) (vs : List Nat) : Prop where
  obj : m.tx o ≠ 0
  conv : m.conv o = .app k
  known : k ≤ 1
  mem : ∃ r, mem (m.tx o) = vs.flatMap (native le (width k)) ++ r
  dlc : m.txDlc o = width k * vs.length
  fits : m.txDlc o ≤ 8

/-- C91.  After any history of registrations and silent/awake calls a process request is answered, for every module
taking part and each of its objects, by a frame with the numbers of the application most significant byte first,
whatever the byte order of the platform. -/
theorem C91_transmitted_numbers (env : Env) (he : EnvOk env) (le : Bool) (hconv : ExampleConversions env le)
    (mem : Nat → List Byte) (ops : List Op)
    (hok : (Node.init env (boot mem)).2 = E.ok) (hb : ∀ o ∈ ops, Basic o)
    (kind : Nat → Nat → Nat) (vals : Nat → Nat → List Nat) :
    let n := Node.run env (Node.init env (boot mem)).1 ops
    let t := specRun env (Node.init env (boot mem)).1 Table.empty ops
    (∀ m ∈ t.mods, m.on = true → ∀ o < m.txObj, HoldsNumbers le n.mem m o (kind m.nr o) (vals m.nr o)) →
    ∃ (n' : Node) (evs : List Ev), sendProcessData env n = some n' ∧ n'.log = evs.reverse ++ n.log ∧
      evs.map frameOf = ((t.mods.filter fun m => m.on).flatMap fun m => (List.range m.txObj).map fun o => some
        (⟨0x400 + 4 * (m.nr - 1) + o, width (kind m.nr o) * (vals m.nr o).length,
          (vals m.nr o).flatMap (be (width (kind m.nr o)))⟩ : Frame)) := by
  intro n t hh
  have hc : Convertible env n.mem t.mods := by
    intro m hm hon o ho
    obtain ⟨h1, h2, h3, ⟨r, h4⟩, h5, h6⟩ := hh m hm hon o ho
    refine ⟨h1, _, h2, fun buf => ?_⟩
    rw [h4, h5, tx_numbers hconv h3 _ r buf (by omega), tx_numbers hconv h3 _ r env.garbage (by omega)]
    refine ⟨rfl, ?_⟩
    rw [List.take_left' (flat_be _ _), List.take_left' (flat_be _ _)]
  obtain ⟨n', evs, e1, e2, e3, -⟩ := C09_process_data env he mem ops hok hb hc
  refine ⟨n', evs, e1, e2, e3.trans ?_⟩
  show (replies env n.mem t.mods).map some = _
  generalize t.mods = l at hh ⊢
  induction l with
  | nil => rfl
  | cons m l ih =>
    have ih := ih fun m' hm' => hh m' (List.mem_cons_of_mem _ hm')
    unfold replies at ih ⊢
    rw [List.flatMap_cons, List.map_append, ih, List.filter_cons]
    cases hon : m.on with
    | false => simp
    | true =>
      rw [if_pos rfl, if_pos rfl, List.flatMap_cons, List.map_map]
      congr 1
      apply List.map_congr_left
      intro o ho
      obtain ⟨h1, h2, h3, ⟨r, h4⟩, h5, h6⟩ := hh m (by simp) hon o (List.mem_range.1 ho)
      simp only [Function.comp]
      unfold content
      rw [h2, h5]
      simp only
      rw [h4, tx_numbers hconv h3 _ r env.garbage (by omega), List.take_left' (flat_be _ _)]

/-- a node of either byte order with the example conversions -/
def exConvEnv (le : Bool) : Env :=
  { exEnv with
    txConv := fun k app dlc buf =>
      if k = 0 then ((txU16 le app dlc (pad8 buf)).getD (pad8 buf), E.ok) else ((txU32 le app dlc (pad8 buf)).getD (pad8 buf), E.ok)
    rxConv := fun k can dlc app =>
      if k = 0 then ((rxU16 le can dlc app).getD app, E.ok) else (((rxU32 le can dlc app).map Prod.snd).getD app, E.ok) }

theorem exConvEnv_conv (le : Bool) : ExampleConversions (exConvEnv le) le :=
  ⟨fun _ _ _ => rfl, fun _ _ _ => rfl, fun _ _ _ => rfl, fun _ _ _ => rfl⟩

/-- object 110: one 32-bit number; object 111: three 16-bit numbers; all others: 16 zeros -/
def exNumbers (le : Bool) : Nat → List Byte := fun p =>
  if p = 110 then native le 4 0x12345678
  else if p = 111 then native le 2 1 ++ native le 2 2 ++ native le 2 0xABCD ++ [7, 7]
  else List.replicate 16 0

/-- one receive object of four bytes, two transmit objects -/
def exNumTpl : Row :=
  { typ := [77, 68, 65], rxObj := 1, txObj := 2, rxDlc := fun _ => 4, txDlc := fun o => if o = 0 then 4 else 6
    rxMain := fun _ => .app 1, txMain := fun o => .app (1 - o) }

def exNumOps : List Op := [.add exNumTpl 5 (fun j => 100 + j) (fun j => 110 + j)]

/-- the hypotheses of C91 and the frames, equal for both byte orders -/
example (le : Bool) :
    let n := Node.run (exConvEnv le) (Node.init (exConvEnv le) (boot (exNumbers le))).1 exNumOps
    let t := specRun (exConvEnv le) (Node.init (exConvEnv le) (boot (exNumbers le))).1 Table.empty exNumOps
    EnvOk (exConvEnv le) ∧ (Node.init (exConvEnv le) (boot (exNumbers le))).2 = E.ok ∧ (∀ o ∈ exNumOps, Basic o) ∧
    (∀ m ∈ t.mods, m.on = true → ∀ o < m.txObj, HoldsNumbers le n.mem m o (1 - o) (if o = 0 then [0x12345678] else [1, 2, 0xABCD])) ∧
    (sendProcessData (exConvEnv le) n).map (fun n' => (n'.log.take 2).reverse.map frameOf) =
      some [some ⟨0x410, 4, [0x12, 0x34, 0x56, 0x78]⟩, some ⟨0x411, 6, [0, 1, 0, 2, 0xAB, 0xCD]⟩] := by
  refine ⟨by cases le <;> exact ⟨by decide, by decide, by decide⟩, by cases le <;> decide +kernel, by simp [exNumOps, Basic, exNumTpl], ?_,
    by cases le <;> decide +kernel⟩
  have ht : specRun (exConvEnv le) (Node.init (exConvEnv le) (boot (exNumbers le))).1 Table.empty exNumOps =
      Table.run 3 Table.empty exNumOps := by cases le <;> rfl
  rw [ht]
  intro m hm hon o ho
  have hl : (Table.run 3 Table.empty exNumOps).mods =
    [{ typ := [77, 68, 65], nr := 5, txObj := 2, txDlc := fun o => if o = 0 then 4 else 6, tx := fun j => 110 + j
       main := fun o => .app (1 - o), conv := fun o => .app (1 - o), on := true }] := rfl
  rw [hl] at hm
  simp only [List.mem_cons, List.not_mem_nil, or_false] at hm
  subst hm
  have hmem : (Node.run (exConvEnv le) (Node.init (exConvEnv le) (boot (exNumbers le))).1 exNumOps).mem = exNumbers le := by
    cases le <;> rfl
  rcases Nat.lt_or_ge o 1 with h | h
  · obtain rfl : o = 0 := by omega
    refine ⟨by decide, rfl, by decide, ⟨[], ?_⟩, rfl, by decide⟩
    rw [hmem]
    cases le <;> decide +kernel
  · obtain rfl : o = 1 := by dsimp only at ho; omega
    refine ⟨by decide, rfl, by decide, ⟨[7, 7], ?_⟩, rfl, by decide⟩
    rw [hmem]
    cases le <;> decide +kernel

namespace Slave

/-- C91.  A frame for receive object `j` of module `i` with numbers most significant byte first leaves these numbers in
the application's object, in the byte order of the platform; behind them the object is unchanged. -/
theorem C91_received_numbers (env : Env) (he : EnvOk env) (le : Bool) (hconv : ExampleConversions env le)
    (s : Slave) (h : SReach env s) (now obj dlc id : Nat) (vs : List Nat) (stale : List Byte) (i j k : Nat)
    (hbus : Delivered env s.node (.frame now obj dlc id (vs.flatMap (be (width k)) ++ stale)))
    (hi : (s.node.rows i).typ ≠ []) (hj : j < (s.node.rows i).rxObj)
    (hid : id = 0x200 + 4 * ((s.node.rows i).nr - 1) + j)
    (hk : k ≤ 1) (hfn : (s.node.rows i).rxMainSync j = .app k)
    (hlen : dlc = width k * vs.length) (hdlc : env.chk = true → dlc = (s.node.rows i).rxDlcSync j)
    (hroom : dlc ≤ (s.node.mem ((s.node.rows i).rx j)).length) :
    ∃ s', step env s (.frame now obj dlc id (vs.flatMap (be (width k)) ++ stale)) = some s' ∧
      s'.node.mem ((s.node.rows i).rx j) =
        vs.flatMap (native le (width k)) ++ (s.node.mem ((s.node.rows i).rx j)).drop dlc ∧
      (∀ p, p ≠ (s.node.rows i).rx j → s'.node.mem p = s.node.mem p) := by
  obtain ⟨s', e, m, -, o, -⟩ := C15_matching_frame env he s h now obj dlc id _ hbus i j hi hj hid hdlc
  refine ⟨s', e, ?_, o⟩
  rw [m k hfn]
  have hp := (List.take_append_drop dlc (s.node.mem ((s.node.rows i).rx j)))
  have hl : ((s.node.mem ((s.node.rows i).rx j)).take dlc).length = width k * vs.length := by
    rw [List.length_take]; omega
  generalize (s.node.mem ((s.node.rows i).rx j)).take dlc = ys at *
  generalize (s.node.mem ((s.node.rows i).rx j)).drop dlc = d at *
  rw [← hp, hlen, rx_numbers hconv hk vs stale ys d hl]

/-- the number received is in the object in the byte order of the platform -/
example (le : Bool) :
    ((run (exConvEnv le) (boot (exNumbers le)) ([.init 250] ++ exNumOps.map In.table)).bind fun s =>
      (step (exConvEnv le) s (.frame 1 1 4 0x210 ([0x89, 0xAB, 0xCD, 0xEF] ++ [9, 9, 9, 9]))).map fun s' =>
        (s.node.hw.defs 1, (s.node.rows 0).rxDlcSync 0, (s.node.rows 0).rxMainSync 0, s'.node.mem 100)) =
    some (some ⟨0x210, 0x7FF#16, 4, .rx true⟩, 4, .app 1, native le 4 0x89ABCDEF ++ List.replicate 12 0) := by
  cases le <;> decide +kernel

end Slave
end LiCan
