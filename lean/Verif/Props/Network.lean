import Verif.Lemmas.OwnedStack
import Verif.Lemmas.StackExample
import Verif.Props.Legal
/-! # Several slaves on one bus (C94, C95) -/
namespace LiCan
open Spec
namespace Stack
open Node (exMem exTpl exEnv OpO EnvO)

/-- C94.  From power-on, through any history in which the application and the voter use the numbers `N` only: every frame the stack
hands to the driver has one of the identifiers that belong to the numbers `N`.  (Numbers are distinct within the node, types
are not exchanged, no frame is addressed to 125..127, and none arrives before the first module is registered.) -/
theorem C94_frames_carry_own_numbers_partial (env : AEnv) (N : Nat → Prop) (he : AEnvO env N) (mem : Nat → List Byte) (info : XInfo)
    (hi : info.d.mode = 3 → N info.d.comp.nr) (is : List SIn) (hs : UsesOnly env N (boot mem info) is) (s : Stack)
    (h : run env (boot mem info) is = some s) (f : Frame) (ok : Bool) (hf : Ev.frame f ok ∈ s.slv.node.log) : FromSlave N f.id :=
  let ⟨_, e, k⟩ := ((SO.boot mem he.envo.num hi).run he is hs h).node.2
  k f ok (by rw [e, List.append_nil] at hf; exact hf)

theorem FromSlave.disjoint {A B : Nat → Prop} (hA : Numbers A) (hB : Numbers B) (hd : ∀ n, A n → ¬ B n) {id : Nat} (ha : FromSlave A id) :
    ¬ FromSlave B id := by
  obtain ⟨n, hn, ha⟩ := ha
  rintro ⟨m, hm, hb⟩
  have h1 := hA n hn
  have h2 := hB m hm
  have hne : n ≠ m := fun e => hd n hn (e ▸ hm)
  rcases ha with ha | ⟨i, hi, ha⟩ | ha | ha <;> rcases hb with hb | ⟨j, hj, hb⟩ | hb | hb <;> omega

/-- C94.  Two slaves with disjoint sets of numbers never send frames with the same identifier, whatever each of them receives and its
application does. -/
theorem C94_two_slaves_never_collide_partial (ea eb : AEnv) (A B : Nat → Prop) (ha : AEnvO ea A) (hb : AEnvO eb B) (hd : ∀ n, A n → ¬ B n)
    (ma mb : Nat → List Byte) (ia ib : XInfo) (hia : ia.d.mode = 3 → A ia.d.comp.nr) (hib : ib.d.mode = 3 → B ib.d.comp.nr)
    (la lb : List SIn) (hla : UsesOnly ea A (boot ma ia) la) (hlb : UsesOnly eb B (boot mb ib) lb) (a b : Stack)
    (hra : run ea (boot ma ia) la = some a) (hrb : run eb (boot mb ib) lb = some b) (f g : Frame) (x y : Bool)
    (hf : Ev.frame f x ∈ a.slv.node.log) (hg : Ev.frame g y ∈ b.slv.node.log) : f.id ≠ g.id := by
  intro e
  have h1 := C94_frames_carry_own_numbers_partial ea A ha ma ia hia la hla a hra f x hf
  have h2 := C94_frames_carry_own_numbers_partial eb B hb mb ib hib lb hlb b hrb g y hg
  rw [← e] at h2
  exact FromSlave.disjoint ha.envo.num hb.envo.num hd h1 h2

theorem FromSlave.notTo {A : Nat → Prop} (hA : Numbers A) {id : Nat} (ha : FromSlave A id) : ¬ ToSlave id := by
  obtain ⟨n, hn, ha⟩ := ha
  have h1 := hA n hn
  rintro (hb | ⟨m, h2, hb⟩)
  · rcases ha with ha | ⟨i, hi, ha⟩ | ha | ha <;> omega
  · rcases ha with ha | ⟨i, hi, ha⟩ | ha | ha <;> rcases hb with hb | ⟨j, hj, hb⟩ | hb | hb <;> omega

theorem FromSlave.lt {A : Nat → Prop} (hA : Numbers A) {id : Nat} (ha : FromSlave A id) : id < 2048 := by
  obtain ⟨n, hn, ha⟩ := ha
  have h1 := hA n hn
  rcases ha with ha | ⟨i, hi, ha⟩ | ha | ha <;> omega

/-- C95.  No message object of a slave, at any time of any history, lets a frame through that some slave (itself or another one)
has sent at any time of any history. -/
theorem C95_slaves_do_not_hear_slaves_partial (ea eb : AEnv) (A B : Nat → Prop) (ha : AEnvO ea A) (hb : AEnvO eb B)
    (ma mb : Nat → List Byte) (ia ib : XInfo) (hia : ia.d.mode = 3 → A ia.d.comp.nr) (hib : ib.d.mode = 3 → B ib.d.comp.nr)
    (la lb : List SIn) (hla : UsesOnly ea A (boot ma ia) la) (hlb : UsesOnly eb B (boot mb ib) lb) (a b : Stack)
    (hra : run ea (boot ma ia) la = some a) (hrb : run eb (boot mb ib) lb = some b) (f : Frame) (x : Bool)
    (hf : Ev.frame f x ∈ a.slv.node.log) (o : Nat) (d : ObjDef) (ho : b.slv.node.hw.defs o = some d) (hr : d.svc ≠ .tx) :
    hwAccepts (BitVec.ofNat 16 d.id) d.mask (BitVec.ofNat 16 f.id) = false := by
  have h1 := C94_frames_carry_own_numbers_partial ea A ha ma ia hia la hla a hra f x hf
  have h2 := ((SO.boot mb hb.envo.num hib).run hb lb hlb hrb).node.1.defs o d ho hr f.id (FromSlave.lt ha.envo.num h1)
  cases hx : hwAccepts (BitVec.ofNat 16 d.id) d.mask (BitVec.ofNat 16 f.id) with
  | false => rfl
  | true => exact absurd (h2 hx) (FromSlave.notTo ha.envo.num h1)

/-! ## A concrete case -/

/-- the hypotheses as a program, for examples -/
def inB (nb : Nat → Bool) (env : AEnv) (s : Stack) : SIn → Bool
  | .rx _ _ _ id _ _ => (s.slv.node.rows 0).typ != [] && (!(125 ≤ id % 512 / 4 + 1 && id % 512 / 4 + 1 ≤ 127) || nb (id % 512 / 4 + 1))
  | .api (.table o) => match o with
    | .add tpl nr rx tx => tpl.typ != [] && tpl.txObj ≤ 4 && tpl.rxObj ≤ 4 && nb nr && 2 ≤ nr && nr ≤ 124 && (s.slv.node.addModule env.toEnv tpl nr rx tx).2 != E.redeclaredNr
    | .silentAwake .. => true
    | .process => true
    | _ => false
  | .init _ => true
  | .hnd .. => true
  | .rcCb .. => true
  | .start _ => true
  | .enqueue nr _ _ => nb nr
  | .act (.uloadEnd nr) => nb nr
  | .ulData .. => s.x.comp.nr != 0
  | .putc _ => true
  | .process .. => true
  | _ => false

def usesB (nb : Nat → Bool) (env : AEnv) : Stack → List SIn → Bool
  | _, [] => true
  | s, i :: is => inB nb env s i && (match step env s i with
    | some s' => usesB nb env s' is
    | none => true)

theorem inB_in (nb : Nat → Bool) (env : AEnv) (s : Stack) (i : SIn) (h : inB nb env s i = true) : SInO env (fun n => nb n = true) s i := by
  cases i with
  | rx now obj dlc id ext data =>
    simp only [inB, Bool.and_eq_true, Bool.or_eq_true, bne_iff_ne, Bool.not_eq_true'] at h
    refine ⟨h.1, fun n a b c => ?_⟩
    subst c
    rcases h.2 with h | h
    · simp [a, b] at h
    · exact h
  | api i =>
    cases i with
    | table o =>
      cases o with
      | add tpl nr rx tx =>
        simp only [inB, Bool.and_eq_true, bne_iff_ne, decide_eq_true_eq] at h
        obtain ⟨⟨⟨⟨⟨⟨h1, h2⟩, h3⟩, h4⟩, h5⟩, h6⟩, h7⟩ := h
        exact ⟨h1, h2, h3, h4, ⟨h5, h6⟩, h7⟩
      | _ => first | trivial | (exact absurd h (by simp [inB]))
    | _ => trivial
  | act a => cases a <;> first | exact h | (exact absurd h (by simp [inB]))
  | enqueue nr dlc src => exact h
  | ulData fuel data => exact (by simpa [inB] using h : s.x.comp.nr ≠ 0)
  | dlStart c => exact absurd h (by simp [inB])
  | info o => exact absurd h (by simp [inB])
  | _ => trivial

theorem usesB_uses (nb : Nat → Bool) (env : AEnv) (is : List SIn) : ∀ s, usesB nb env s is = true → UsesOnly env (fun n => nb n = true) s is := by
  induction is with
  | nil => exact fun _ _ => trivial
  | cons i is ih =>
    intro s h
    simp only [usesB, Bool.and_eq_true] at h
    refine ⟨inB_in nb env s i h.1, fun s' e => ih s' ?_⟩
    rw [e] at h; exact h.2

/-- a slave with the numbers `nb` and a serial number -/
def exNet (nb : Nat → Bool) (sn : Nat) : AEnv := { exA with
  serial := sn
  voter := some fun _ nr _ => if nb nr then .valid else .forbidden }

theorem exNet_ok (nb : Nat → Bool) (sn : Nat) (hn : Numbers (fun n => nb n = true)) : AEnvO (exNet nb sn) (fun n => nb n = true) := by
  refine ⟨⟨(by decide : 3 ≤ 8), hn, _, rfl, ?_⟩, ?_⟩
  · intro t nr act h
    show nb nr = true
    cases hx : nb nr with
    | true => rfl
    | false => simp [hx] at h
  · intro k c _ a ha
    have : a = .get := by
      simp only [exNet, exA] at ha
      split at ha
      · exact (List.mem_replicate.1 ha).2
      · cases ha
    subst this; trivial

/-- the first slave has the numbers 5, 6 and 9, the second 7 and 11 -/
def exNa (n : Nat) : Bool := n == 5 || n == 6 || n == 9
def exNb (n : Nat) : Bool := n == 7 || n == 11

/-- module 9 becomes 6; process request, status request to all, data and control message -/
def exLa : List SIn := exSetup ++
  [.rx 5 2 8 0x22 false [0x20, 0, 6, 0, 0, 0, 0, 1], .rx 8 0 1 0x01 false [0], .rx 20 2 8 0x02 false [1, 0, 0, 0, 0, 0, 0, 0],
   .enqueue 9 3 [7, 8, 9, 10], .act (.uloadEnd 9)]

def exLb : List SIn := [.init 250, .api (.table (.add (exTpl 65 2 2) 7 (fun j => 100 + j) (fun j => 110 + j))),
   .api (.table (.add (exTpl 66 1 1) 11 (fun j => 120 + j) (fun j => 130 + j))), .rx 8 0 1 0x01 false [0],
   .rx 20 2 8 0x02 false [1, 0, 0, 0, 0, 0, 0, 0]]

theorem exNa_num : Numbers (fun n => exNa n = true) := by
  intro n h
  simp only [exNa, Bool.or_eq_true, beq_iff_eq] at h
  omega

theorem exNb_num : Numbers (fun n => exNb n = true) := by
  intro n h
  simp only [exNb, Bool.or_eq_true, beq_iff_eq] at h
  omega

/-- every hypothesis holds, and both slaves send -/
example : AEnvO (exNet exNa 1) (fun n => exNa n = true) ∧ AEnvO (exNet exNb 2) (fun n => exNb n = true) ∧
    (∀ n, exNa n = true → ¬ exNb n = true) ∧
    UsesOnly (exNet exNa 1) (fun n => exNa n = true) (boot exMem exInfo) exLa ∧
    UsesOnly (exNet exNb 2) (fun n => exNb n = true) (boot exMem exInfo) exLb ∧
    ((run (exNet exNa 1) (boot exMem exInfo) exLa).map fun s => (exFrames s).map (·.id)) =
      some [0x410, 0x411, 0x414, 0x415, 0x416, 0x13, 0x17, 0x623, 0x621] ∧
    ((run (exNet exNb 2) (boot exMem exInfo) exLb).map fun s => (exFrames s).map (·.id)) = some [0x418, 0x419, 0x428, 0x1B, 0x2B] := by
  refine ⟨exNet_ok _ _ exNa_num, exNet_ok _ _ exNb_num, ?_, usesB_uses _ _ _ _ (by decide +kernel), usesB_uses _ _ _ _ (by decide +kernel),
    by decide +kernel, by decide +kernel⟩
  intro n h
  simp only [exNa, exNb, Bool.or_eq_true, beq_iff_eq] at *
  omega

/-! ## What happens outside the hypotheses -/

/-- three modules may be registered, two are -/
def exHole (x y : Nat) : List SIn := [.init 250, .api (.table (.add (exTpl 65 1 1) x (fun j => 100 + j) (fun j => 110 + j))),
   .api (.table (.add (exTpl 66 1 1) y (fun j => 120 + j) (fun j => 130 + j)))]

/-- does object `obj` let identifier `id` through -/
def hears (s : Stack) (obj id : Nat) : Bool := match s.slv.node.hw.defs obj with
  | some d => d.svc != .tx && hwAccepts (BitVec.ofNat 16 d.id) d.mask (BitVec.ofNat 16 id)
  | none => false

/-- C94 fails for the unused rows of the table: they keep the numbers 125..127 and answer.  A status request to number 127, which no
module on the bus has, passes the acceptance filter of a slave with modules 5 and 124 and of one with modules 7 and 122;
both answer with identifier 0x1FB and different contents. -/
theorem C94_counterexample_unused_rows_answer : ∃ a b f g,
    run (exNet (fun n => n == 5 || n == 124) 1) (boot exMem exInfo) (exHole 5 124 ++ [.rx 20 2 8 0x1FA false [1, 0, 0, 0, 0, 0, 0, 0]]) = some a ∧
    run (exNet (fun n => n == 7 || n == 122) 2) (boot exMem exInfo) (exHole 7 122 ++ [.rx 20 2 8 0x1FA false [1, 0, 0, 0, 0, 0, 0, 0]]) = some b ∧
    hears a 2 0x1FA = true ∧ hears b 2 0x1FA = true ∧
    Ev.frame f true ∈ a.slv.node.log ∧ Ev.frame g true ∈ b.slv.node.log ∧ f.id = g.id ∧ f.data ≠ g.data := by
  have h1 : (run (exNet (fun n => n == 5 || n == 124) 1) (boot exMem exInfo) (exHole 5 124 ++ [.rx 20 2 8 0x1FA false [1, 0, 0, 0, 0, 0, 0, 0]])).any (fun s =>
      hears s 2 0x1FA && decide (Ev.frame ⟨0x1FB, 8, [4, 0, 0, 0, 0, 0, 0, 1]⟩ true ∈ s.slv.node.log)) = true := by decide +kernel
  have h2 : (run (exNet (fun n => n == 7 || n == 122) 2) (boot exMem exInfo) (exHole 7 122 ++ [.rx 20 2 8 0x1FA false [1, 0, 0, 0, 0, 0, 0, 0]])).any (fun s =>
      hears s 2 0x1FA && decide (Ev.frame ⟨0x1FB, 8, [4, 0, 0, 0, 0, 0, 0, 2]⟩ true ∈ s.slv.node.log)) = true := by decide +kernel
  obtain ⟨a, ha, ha'⟩ := (Option.any_eq_true ..).1 h1
  obtain ⟨b, hb, hb'⟩ := (Option.any_eq_true ..).1 h2
  have ha' := Bool.and_eq_true_iff.1 ha'
  have hb' := Bool.and_eq_true_iff.1 hb'
  exact ⟨a, b, _, _, ha, hb, ha'.1, hb'.1, of_decide_eq_true ha'.2, of_decide_eq_true hb'.2, rfl, by decide⟩

/-- C94 fails for a type change of a silent module: the new type has more objects than the old one, the identifiers are configured
only if the module is awake; once it is, it sends process data with identifier 0, the highest priority on the bus, which
belongs to nobody. -/
theorem C94_counterexample_type_change_while_silent : ∃ s, run (exNet (fun n => n == 5) 1) (boot exMem exInfo)
    [.init 250, .api (.table (.add (exTpl 65 1 1) 5 (fun j => 100 + j) (fun j => 110 + j))),
     .api (.table (.changeTypeAdd [77, 68, 65] (exTpl 66 1 2) (fun j => 100 + j) (fun j => 110 + j) false)),
     .rx 5 2 8 0x12 false [0x21, 77, 68, 65, 0, 0, 0, 1], .rx 6 2 8 0x12 false [0x31, 77, 68, 66, 0, 0, 0, 1],
     .rx 7 2 8 0x12 false [0x22, 77, 68, 66, 0, 0, 0, 1], .rx 8 0 1 0x01 false [0]] = some s ∧
    (exFrames s).map (·.id) = [0x410, 0] ∧ ¬ FromSlave (fun n => 1 ≤ n ∧ n ≤ 128) 0 := by
  have h : (run (exNet (fun n => n == 5) 1) (boot exMem exInfo)
    [.init 250, .api (.table (.add (exTpl 65 1 1) 5 (fun j => 100 + j) (fun j => 110 + j))),
     .api (.table (.changeTypeAdd [77, 68, 65] (exTpl 66 1 2) (fun j => 100 + j) (fun j => 110 + j) false)),
     .rx 5 2 8 0x12 false [0x21, 77, 68, 65, 0, 0, 0, 1], .rx 6 2 8 0x12 false [0x31, 77, 68, 66, 0, 0, 0, 1],
     .rx 7 2 8 0x12 false [0x22, 77, 68, 66, 0, 0, 0, 1], .rx 8 0 1 0x01 false [0]]).any (fun s => (exFrames s).map (·.id) == [0x410, 0]) = true := by decide +kernel
  obtain ⟨s, h1, h2⟩ := (Option.any_eq_true ..).1 h
  refine ⟨s, h1, by simpa using h2, ?_⟩
  rintro ⟨n, ⟨h3, h4⟩, h5⟩
  rcases h5 with h | ⟨j, _, h⟩ | h | h <;> omega

/-- C94 fails before the first registration: the error that the transfer info is lost is sent with the number 125 of the unused
first row. -/
theorem C94_counterexample_no_module : ∃ s, run (exNet (fun _ => false) 1) (boot exMem { exInfo with crc := 0 })
    [.init 250, .rx 8 0 1 0x01 false [0]] = some s ∧ (exFrames s).map (·.id) = [0x1F3] := by
  have h : (run (exNet (fun _ => false) 1) (boot exMem { exInfo with crc := 0 })
    [.init 250, .rx 8 0 1 0x01 false [0]]).any (fun s => (exFrames s).map (·.id) == [0x1F3]) = true := by decide +kernel
  obtain ⟨s, h1, h2⟩ := (Option.any_eq_true ..).1 h
  exact ⟨s, h1, by simpa using h2⟩

/-- six modules, the last one with a number another one has -/
def exSix : List SIn := .init 250 :: ([(65, 5), (66, 6), (67, 7), (68, 8), (69, 9), (70, 9)] : List (Byte × Nat)).map fun p =>
  .api (.table (.add (exTpl p.1 0 1) p.2 (fun j => 100 + j) (fun j => 110 + j)))

/-- C95 fails for the default numbers of a table with more than four rows: the sixth module, registered with a number already in use, gets
number 130; its process data have identifier 0x604, which module 2 of another slave takes as a command of the master. -/
theorem C95_counterexample_default_number : ∃ a b, run { exNet (fun n => n == 5) 1 with maxMod := 8 } (boot exMem exInfo)
      (exSix ++ [.rx 8 0 1 0x01 false [0]]) = some a ∧
    run (exNet (fun n => n == 2) 2) (boot exMem exInfo) [.init 250, .api (.table (.add (exTpl 65 1 1) 2 (fun j => 100 + j) (fun j => 110 + j)))] = some b ∧
    0x604 ∈ (exFrames a).map (·.id) ∧ (∃ o, hears b o 0x604 = true ∧ o = b.slv.node.ctrlObj 0) := by
  have h1 : (run { exNet (fun n => n == 5) 1 with maxMod := 8 } (boot exMem exInfo)
      (exSix ++ [.rx 8 0 1 0x01 false [0]])).any (fun s => (exFrames s).map (·.id) |>.contains 0x604) = true := by decide +kernel
  have h2 : (run (exNet (fun n => n == 2) 2) (boot exMem exInfo) [.init 250, .api (.table (.add (exTpl 65 1 1) 2 (fun j => 100 + j) (fun j => 110 + j)))]).any
      (fun s => hears s (s.slv.node.ctrlObj 0) 0x604) = true := by decide +kernel
  obtain ⟨a, ha, ha'⟩ := (Option.any_eq_true ..).1 h1
  obtain ⟨b, hb, hb'⟩ := (Option.any_eq_true ..).1 h2
  exact ⟨a, b, ha, hb, by simpa using ha', _, hb', rfl⟩

end Stack
end LiCan
