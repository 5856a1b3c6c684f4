import Verif.Lemmas.SlaveHw
/-! # Synchronous data and the process image: C14, C15 -/
namespace LiCan
open Node Spec
namespace Spec

/-- Is the input a frame with this identifier and (if lengths are checked) this length? -/
def isFrame (chk : Bool) (id dlc : Nat) : In → Bool
  | .frame _ _ l x _ => x == id && (!chk || l == dlc)
  | _ => false

/-- How often the frame arrived. -/
def arrivals (chk : Bool) (id dlc : Nat) (xs : List In) : Nat := (xs.filter (isFrame chk id dlc)).length

/-- A received frame comes in through a message object whose programmed filter accepts its 11-bit
identifier (behaviour of the CAN controller, trusted). -/
def Delivered (env : Env) (n : Node) : In → Prop
  | .frame _ obj _ id _ => obj < env.nObj ∧ id < 0x800 ∧ ∃ d, n.hw.defs obj = some d ∧
      hwAccepts (BitVec.ofNat 16 d.id) d.mask (BitVec.ofNat 16 id) = true
  | _ => True

/-- The calls made through a list of possibly unset callbacks. -/
def callsOf (l : List (Option Nat)) : List Ev := l.filterMap fun f => f.map Ev.call

end Spec

namespace Slave

theorem flatMap_calls {α : Type} (l : List α) (f : α → Option Nat) :
    (l.flatMap fun i => calls (f i)) = callsOf (l.map f) := by
  induction l with
  | nil => rfl
  | cons a l ih =>
    rw [List.flatMap_cons, ih]
    cases h : f a <;> simp [callsOf, calls, h]

theorem request_data_id {env : Env} (he : EnvOk env) {s : Slave} (hi : TableInv env s.node) (dlc id : Nat)
    (data : List Byte) : dataPart env s 0 dlc id data = s := by
  unfold dataPart
  rw [if_neg]
  intro hb
  obtain ⟨t, g, -⟩ := hi
  have h1 := (bit_and_iff _ 0 (by decide)).1 hb
  have h2 := (g.hw.isr 0 (by decide)).1 h1
  exact (g.hw.asg 0 (by simp only [assigned, List.mem_append]; exact .inl h2)).2.1 (.inl rfl)

theorem request_step {env : Env} (he : EnvOk env) {s s' : Slave} (hi : TableInv env s.node) {now dlc id : Nat}
    {data : List Byte} (h : step env s (.frame now 0 dlc id data) = some s') :
    processRequest env s now dlc = some s' := by
  have h' : handlerRx env s now 0 dlc id data = some s' := h
  rw [handlerRx_eq, request_data_id he hi, if_neg (by omega)] at h'
  simpa [reqPart] using h'

theorem _root_.LiCan.Light.delivered {env : Env} {n n' : Node} (l : Light n n') (x : In) (h : Delivered env n x) : Delivered env n' x := by
  cases x <;> simp only [Delivered] at *
  rw [l.hw]; exact h

/-- C14.  Two process requests are received (the second with a length of at most one byte), then
frames, API calls that leave the module table alone and system messages in any order, then the
next request.  This request
* makes module `i` valid iff each receive object it has switched on arrived exactly once in between
  (modulo 65536, the width of the counter): frames with the identifier of that object and the length
  configured for it;
* calls, in this order, the request callbacks, the valid or not-valid callback of every module and,
  iff all modules are valid, the all-valid callback; everything after that is transmission;
* sets all counters in use back to zero.
`_partial`: with only one request before, with a longer request or with a module switched on or off in
between the claim is false, see the counterexamples below. -/
theorem C14_valid_iff_once_partial (env : Env) (he : EnvOk env) (s0 sA sB s1 s2 s3 : Slave)
    (h0 : SReach env s0) (tA tB tC dA dB dC : Nat) (mid xs : List In)
    (hA : step env s0 (.frame tA 0 dA 1 []) = some sA)
    (hm : ∀ x ∈ mid, BasicIn env x) (hmid : run env sA mid = some sB)
    (hB : step env sB (.frame tB 0 dB 1 []) = some s1) (hd : dB ≤ 1)
    (hq : ∀ x ∈ xs, Quiet env x) (hbus : ∀ x ∈ xs, Delivered env s1.node x)
    (hxs : run env s1 xs = some s2)
    (hC : step env s2 (.frame tC 0 dC 1 []) = some s3) :
    (∀ i < s2.node.nrMod, s3.sync.valid i = true ↔
      ∀ j < (s2.node.rows i).rxObjSync,
        arrivals env.chk (0x200 + 4 * ((s2.node.rows i).nr - 1) + j) ((s2.node.rows i).rxDlcSync j) xs % 65536 = 1) ∧
    (∃ fr, (∀ e ∈ fr, ∃ f ok, e = Ev.frame f ok) ∧ s3.node.log = fr ++
      (callsOf ((List.range s2.node.nrMod).map s2.sync.reqCb) ++
       callsOf ((List.range s2.node.nrMod).map fun i => if s3.sync.valid i then s2.sync.validCb i else s2.sync.invalidCb i) ++
       callsOf (if (List.range s2.node.nrMod).all s3.sync.valid then [s2.sync.allCb] else [])).reverse ++ s2.node.log) ∧
    (∀ i < env.maxMod, ∀ j < (s3.node.rows i).rxObjSync, s3.sync.cnt i j = 0) := by
  have basicReq : ∀ t d, BasicIn env (.frame t 0 d 1 []) := fun t d => by intro h; omega
  have quietBasic : ∀ x, Quiet env x → BasicIn env x := by
    intro x hx
    cases x <;> simp only [Quiet, BasicIn] at *
    intro ho
    have := hx.2 ho
    unfold tableCmd at this
    omega
  have rA := h0.step (basicReq tA dA) hA
  have rB := rA.run mid hm hmid
  have r1 := rB.step (basicReq tB dB) hB
  have r2 := r1.run xs (fun x hx => quietBasic x (hq x hx)) hxs
  obtain ⟨q0, i0⟩ := h0.inv he
  obtain ⟨qB, iB⟩ := rB.inv he
  obtain ⟨qA, iA⟩ := rA.inv he
  obtain ⟨q1, i1⟩ := r1.inv he
  obtain ⟨q2, i2⟩ := r2.inv he
  have def2 := r2.defs he
  -- request A sets the flag, nothing in between clears it
  have pA := (q0.request (request_step he i0 hA)).2.1
  have flagB : sB.sync.prFlag = 0xFFFF := by
    refine run_ind (fun s => (ReqInv s ∧ s.sync.prFlag = 0xFFFF)) ?_ mid ⟨qA, pA⟩ hmid |>.2
    rintro s s' x ⟨a, b⟩ hs
    exact ⟨a.step hs, flag_step a b hs⟩
  -- request B clears the counters
  have hB' := request_step he iB hB
  have hC' := request_step he i2 hC
  have oB := qB.request hB'
  have kB := checkImage_keeps env (reqRx sB) tB qB.reqRx
  simp only at kB
  obtain ⟨lB, -, -, sB', -⟩ := processRequest_spec hB'
  have cnt1 : s1.sync.cnt = cleared env (reqRx sB) := by
    rw [sB']
    exact kB.2.2.2.2.2.2.2.2.2.2.2.2.2.1 (by rw [reqRx_eq]; exact flagB)
  have first1 : s1.sync.first = true := by
    rw [sB']; show (checkImage env (reqRx sB) tB).sync.first = true
    rw [kB.2.2.2.2.2.2.2.1, reqRx_eq]
  have qr := quiet_run xs hq hxs
  have hrow : s2.node.rows = sB.node.rows := by rw [qr.light.rows, oB.2.2.2.rows]
  have zero1 : ∀ i < env.maxMod, ∀ j < (s2.node.rows i).rxObjSync, s1.sync.cnt i j = 0 := by
    intro i hi j hj
    rw [cnt1]
    simp only [cleared]
    rw [if_pos]
    refine ⟨hi, ?_⟩
    rw [reqRx_eq]
    show j < (sB.node.rows i).rxObjSync
    rw [← hrow]; exact hj
  -- counters after the frames
  have reg2 : ∀ i < s2.node.nrMod, (s2.node.rows i).typ ≠ [] := by
    intro i hi
    obtain ⟨t, g, -⟩ := i2
    exact (g.sim.registered i).2 (Nat.lt_of_lt_of_le hi g.nrMod)
  have sync_le : ∀ i < s2.node.nrMod, (s2.node.rows i).rxObjSync ≤ (s2.node.rows i).rxObj := by
    intro i hi
    have hreg := reg2 i hi
    obtain ⟨t, g, -⟩ := i2
    have hl := (g.sim.registered i).1 hreg
    have := (g.sim.row i t.mods[i] (by simp [hl])).rxs trivial
    rw [this]; split <;> omega
  have cnt2 : ∀ i < s2.node.nrMod, ∀ j < (s2.node.rows i).rxObjSync, s2.sync.cnt i j =
      arrivals env.chk (0x200 + 4 * ((s2.node.rows i).nr - 1) + j) ((s2.node.rows i).rxDlcSync j) xs % 65536 := by
    intro i hi j hj
    have hmx := Nat.lt_of_lt_of_le hi i2.nrMod
    have z := zero1 i hmx j hj
    rw [qr.cnt i j (by rw [z]; decide), z, Nat.zero_add]
    congr 1
    rw [← countsIn_congr qr.light, List.countP_eq_length_filter]
    unfold arrivals
    congr 1
    apply List.filter_congr
    intro x hx
    have hb := qr.light.delivered x (hbus x hx)
    cases x <;> simp only [countsIn, isFrame]
    next now obj dlc id data =>
      obtain ⟨b1, b2, d, b3, b4⟩ := hb
      have := i2.counts_iff he def2 i j obj dlc id d b1 b3 b2 b4 (reg2 i hi) (Nat.lt_of_lt_of_le hj (sync_le i hi))
      rw [Bool.eq_iff_iff, this]
      simp only [Bool.and_eq_true, beq_iff_eq, Bool.or_eq_true, Bool.not_eq_true']
      cases env.chk <;> simp
  -- the evaluation
  have first2 : s2.sync.first = true := by rw [qr.first]; exact first1
  have rq2 : reqRx s2 = { s2 with node := { s2.node with log := (reqEvs s2).reverse ++ s2.node.log } } := by
    rw [reqRx_eq]
    have : { s2.sync with first := true } = s2.sync := by rw [← first2]
    rw [this]
  have flag2 : (reqRx s2).sync.prFlag = 0xFFFF := by rw [rq2]; show s2.sync.prFlag = _; rw [qr.flag]; exact oB.2.1
  have dlc2 : (reqRx s2).sync.prDlc ≤ 1 := by rw [rq2]; show s2.sync.prDlc ≤ 1; rw [qr.dlc, oB.2.2.1]; exact hd
  have pc2 : (reqRx s2).sync.prCnt = 1 := by
    rcases (q2.reqRx).st with h | h
    · rw [h.1] at flag2; exact absurd flag2 (by decide)
    · exact h.2
  obtain ⟨v, mt, er, ev, hv, -, -⟩ := checkImage_eval env (reqRx s2) tC flag2 dlc2 pc2
  obtain ⟨lC, -, -, sC', fr, hfr, hof⟩ := processRequest_spec hC'
  rw [ev] at lC sC' hfr
  have valid3 : s3.sync.valid = v := by rw [sC']
  have hv' : ∀ i, v i = if i < s2.node.nrMod then okMod s2 i else s2.sync.valid i := by
    intro i; rw [hv i]; rw [rq2]; rfl
  have okv : ∀ i < s2.node.nrMod, v i = okMod s2 i := fun i hi => by rw [hv' i, if_pos hi]
  refine ⟨?_, ⟨fr, hof, ?_⟩, ?_⟩
  · intro i hi
    rw [valid3, okv i hi]
    simp only [okMod, List.all_eq_true, List.mem_range, beq_iff_eq]
    constructor
    · intro h j hj; rw [← cnt2 i hi j hj]; exact h j hj
    · intro h j hj; rw [cnt2 i hi j hj]; exact h j hj
  · rw [hfr]
    simp only [rq2]
    rw [valid3]
    have e1 : reqEvs s2 = callsOf ((List.range s2.node.nrMod).map s2.sync.reqCb) := by
      unfold reqEvs
      rw [first2]
      simp only [if_true, List.nil_append]
      exact flatMap_calls _ _
    have e2 : (List.range s2.node.nrMod).flatMap (modEvs s2) =
        callsOf ((List.range s2.node.nrMod).map fun i => if v i then s2.sync.validCb i else s2.sync.invalidCb i) := by
      rw [← flatMap_calls]
      simp only [List.flatMap_eq_foldl]
      simp only [← List.flatMap_eq_foldl]
      rw [List.flatMap_def, List.flatMap_def]
      congr 1
      apply List.map_congr_left
      intro i hi
      simp only [modEvs, okv i (List.mem_range.1 hi)]
    have e3 : (if allOk s2 then calls s2.sync.allCb else []) =
        callsOf (if (List.range s2.node.nrMod).all v then [s2.sync.allCb] else []) := by
      have : (List.range s2.node.nrMod).all v = allOk s2 := by
        unfold allOk
        rw [Bool.eq_iff_iff]
        simp only [List.all_eq_true, List.mem_range]
        constructor
        · intro h i hi; rw [← okv i hi]; exact h i hi
        · intro h i hi; rw [okv i hi]; exact h i hi
      rw [this]
      cases allOk s2 <;> simp [callsOf, calls]
      cases s2.sync.allCb <;> rfl
    have e4 : imageEvs { s2 with node := { s2.node with log := (reqEvs s2).reverse ++ s2.node.log } } = imageEvs s2 := rfl
    rw [e4]
    unfold imageEvs
    rw [e1, e2, e3]
    simp only [List.reverse_append, List.append_assoc]
  · intro i hi j hj
    rw [sC']
    show cleared env (reqRx s2) i j = 0
    unfold cleared
    rw [if_pos]
    refine ⟨hi, ?_⟩
    have : s3.node.rows = (reqRx s2).node.rows := lC.rows
    rw [← this]; exact hj

/-- A module that is switched on waits for all its receive objects; one that is silent or critical
for none. -/
theorem C14_objects (env : Env) (he : EnvOk env) (s : Slave) (h : SReach env s) (i : Nat)
    (hi : (s.node.rows i).typ ≠ []) :
    (s.node.rows i).rxObjSync = 0 ∨ (s.node.rows i).rxObjSync = (s.node.rows i).rxObj := by
  obtain ⟨-, t, g, -⟩ := h.inv he
  have hl := (g.sim.registered i).1 hi
  have := (g.sim.row i t.mods[i] (by simp [hl])).rxs trivial
  rw [this]; split
  · exact .inr rfl
  · exact .inl rfl

/-- two modules (numbers 5 and 9) with callbacks -/
def exStart : Option Slave :=
  run exEnv (Slave.init exEnv (Slave.boot exMem) 250).1
    ((exOps.map In.table) ++ [.allCb (some 1), .validCb [77, 68, 65] 5 (some 2), .validCb [77, 68, 66] 9 (some 3),
      .invalidCb [77, 68, 65] 5 (some 4), .invalidCb [77, 68, 66] 9 (some 5), .reqCb [77, 68, 66] 9 (some 6)])

/-- the process request -/
def exReq (t : Nat) : In := .frame t 0 0 1 []

/-- the frames of the two objects of module 5 (message objects 1 and 4) and of module 9 (7) -/
def exF5 : In := .frame 0 1 2 0x210 [1, 2]
def exF5' : In := .frame 0 4 2 0x211 [3, 4]
def exF9 : In := .frame 0 7 2 0x220 [5, 6]

/-- validity of the modules after a history -/
def exValid (xs : List In) : Option (List Bool) :=
  (exStart.bind fun s => run exEnv s xs).map fun s => (List.range s.node.nrMod).map s.sync.valid

/-- the calls made, oldest first -/
def exCalls (xs : List In) : Option (List Nat) :=
  (exStart.bind fun s => run exEnv s xs).map fun s => s.node.log.reverse.filterMap fun e => match e with
    | .call f => some f
    | _ => none

/-- the message objects -/
example : (exStart.map fun s => (s.node.hw.defs 1, s.node.hw.defs 4, s.node.hw.defs 7)) =
    some (some ⟨0x210, 0x7FF#16, 2, .rx true⟩, some ⟨0x211, 0x7FF#16, 2, .rx true⟩,
      some ⟨0x220, 0x7FF#16, 2, .rx true⟩) := by decide +kernel

/-- everything arrived once: both valid, all-valid called -/
example : exValid [exReq 1, exReq 2, exF5, exF9, exF5', exReq 3] = some [true, true] ∧
    exCalls [exReq 1, exReq 2, exF5, exF9, exF5', exReq 3] = some [6, 6, 4, 5, 6, 2, 3, 1] := by decide +kernel

/-- one object of module 5 twice, or missing, or with the wrong length: module 5 is not valid -/
example : exValid [exReq 1, exReq 2, exF5, exF9, exF5', exF5, exReq 3] = some [false, true] ∧
    exValid [exReq 1, exReq 2, exF5, exF9, exReq 3] = some [false, true] ∧
    exValid [exReq 1, exReq 2, exF5, exF9, .frame 0 4 1 0x211 [3], exReq 3] = some [false, true] := by decide +kernel

/-- the hypotheses of C14 on such a history -/
example : ∃ s0 sA sB s1 s2 s3, SReach exEnv s0 ∧ step exEnv s0 (.frame 1 0 0 1 []) = some sA ∧
    run exEnv sA [] = some sB ∧ step exEnv sB (.frame 2 0 0 1 []) = some s1 ∧
    (∀ x ∈ [exF5, exF9, exF5'], Quiet exEnv x) ∧ (∀ x ∈ [exF5, exF9, exF5'], Delivered exEnv s1.node x) ∧
    run exEnv s1 [exF5, exF9, exF5'] = some s2 ∧ step exEnv s2 (.frame 3 0 0 1 []) = some s3 := by
  have ex : ∀ {o : Option Slave}, o.isSome = true → ∃ s, o = some s := fun h => Option.isSome_iff_exists.1 h
  obtain ⟨s0, e0⟩ := ex (o := exStart) (by decide +kernel)
  obtain ⟨sA, eA⟩ := ex (o := exStart.bind fun s => step exEnv s (.frame 1 0 0 1 [])) (by decide +kernel)
  obtain ⟨s1, e1⟩ := ex (o := (exStart.bind fun s => step exEnv s (.frame 1 0 0 1 [])).bind fun s =>
    step exEnv s (.frame 2 0 0 1 [])) (by decide +kernel)
  obtain ⟨s2, e2⟩ := ex (o := ((exStart.bind fun s => step exEnv s (.frame 1 0 0 1 [])).bind fun s =>
    step exEnv s (.frame 2 0 0 1 [])).bind fun s => run exEnv s [exF5, exF9, exF5']) (by decide +kernel)
  obtain ⟨s3, e3⟩ := ex (o := (((exStart.bind fun s => step exEnv s (.frame 1 0 0 1 [])).bind fun s =>
    step exEnv s (.frame 2 0 0 1 [])).bind fun s => run exEnv s [exF5, exF9, exF5']).bind fun s =>
    step exEnv s (.frame 3 0 0 1 [])) (by decide +kernel)
  have hd : (((exStart.bind fun s => step exEnv s (.frame 1 0 0 1 [])).bind fun s =>
    step exEnv s (.frame 2 0 0 1 [])).map fun s => (s.node.hw.defs 1, s.node.hw.defs 4, s.node.hw.defs 7)) =
    some (some ⟨0x210, 0x7FF#16, 2, .rx true⟩, some ⟨0x211, 0x7FF#16, 2, .rx true⟩,
      some ⟨0x220, 0x7FF#16, 2, .rx true⟩) := by decide +kernel
  rw [e1] at hd
  simp only [Option.map_some, Option.some.injEq, Prod.mk.injEq] at hd
  rw [e2] at e3
  rw [e1] at e2
  rw [eA] at e1
  rw [e0] at eA
  refine ⟨s0, sA, sA, s1, s2, s3, ?_, eA, rfl, e1, ?_, ?_, e2, e3⟩
  · refine ⟨exMem, 250, _, by decide +kernel, ?_, e0⟩
    intro i hi
    simp only [exOps, List.map_cons, List.map_nil, List.cons_append, List.nil_append, List.mem_cons, List.not_mem_nil,
      or_false] at hi
    rcases hi with h | h | h | h | h | h | h | h <;> rw [h] <;> simp [BasicIn, Basic, exTpl]
  · simp [exF5, exF9, exF5', Quiet]
  · intro x hx
    simp only [List.mem_cons, List.not_mem_nil, or_false] at hx
    rcases hx with h | h | h <;> rw [h]
    · exact ⟨by decide, by decide, _, hd.1, by decide⟩
    · exact ⟨by decide, by decide, _, hd.2.2, by decide⟩
    · exact ⟨by decide, by decide, _, hd.2.1, by decide⟩

/-- Counterexample to C14 without the first of the two requests: frames received before the first
request are counted into the first period, so a module whose objects arrived exactly once between
the first and the second request is not valid. -/
theorem C14_counterexample_first_period :
    exValid [exF5, exReq 2, exF5, exF9, exF5', exReq 3] = some [false, true] := by decide +kernel

/-- Counterexample to C14 if the previous request was longer than one byte: nothing is evaluated. -/
theorem C14_counterexample_long_request :
    exValid [exReq 1, .frame 2 0 2 1 [0, 0], exF5, exF9, exF5', exReq 3] = some [false, false] ∧
    exCalls [exReq 1, .frame 2 0 2 1 [0, 0], exF5, exF9, exF5', exReq 3] = some [6, 6, 4, 5, 6] := by decide +kernel

/-- Counterexample to C14 if a module is silenced and awakened: the counters of a silent module are
not cleared, so the frame of the period before it was silenced is counted again. -/
theorem C14_counterexample_silent_awake :
    exValid [exReq 1, exReq 2, exF9, .table (.silentAwake 1 0), exReq 3, exReq 4, .table (.silentAwake 1 1), exF9,
      exReq 5] = some [false, false] ∧
    exValid [exReq 1, exReq 2, exF9, exReq 3, exReq 4, exF9, exReq 5] = some [false, true] := by decide +kernel

/-! ## C15 -/

/-- what happens to a frame in the range of synchronous identifiers: the message object that let it
through is a synchronous receive object -/
theorem sync_frame {env : Env} (he : EnvOk env) {s : Slave} (h : SReach env s) {now obj dlc id : Nat} {data : List Byte}
    (hbus : Delivered env s.node (.frame now obj dlc id data)) (h1 : 0x200 ≤ id) (h2 : id < 0x600) :
    ∃ i, (s.node.rows i).typ ≠ [] ∧ (∃ j < (s.node.rows i).rxObj, id = 0x200 + 4 * ((s.node.rows i).nr - 1) + j) ∧
      step env s (.frame now obj dlc id data) = some (rxData env s i id dlc data).1 := by
  obtain ⟨b1, b2, d, b3, b4⟩ := hbus
  have hd := h.defs he
  obtain ⟨-, ti⟩ := h.inv he
  have h32 := he.o32
  have h8 := he.m8
  have hsvc : d.svc = .rx true := by
    by_cases hs : d.svc = .rx true
    · exact hs
    · have := ((hd.all obj b1 d b3).2 hs).reject (id := id) h1 h2
      rw [this] at b4; cases b4
  have hbit := (hd.all obj b1 d b3).1 hsvc
  have ti' := ti
  obtain ⟨t, g, hn⟩ := ti
  have hmem := (g.hw.isr obj (by omega)).1 hbit
  have hnf := (g.hw.asg obj (by simp only [assigned, List.mem_append]; exact .inl hmem)).2.1
  obtain ⟨⟨a, i⟩, hm, ha⟩ := List.mem_map.1 hmem
  simp only at ha; subst ha
  have hs := (slotRow_iff g.hw h32 a (by omega) i).2 hm
  obtain ⟨j, hj, e1, e2⟩ := g.hw.slot _ hm
  simp only [rxBd] at hj
  split at hj
  · next hl =>
    have hreg := (g.sim.registered i).2 hl
    obtain ⟨q1, q2, q3⟩ := ti'.registered he hreg
    refine ⟨i, hreg, ⟨j, hj, ?_⟩, ?_⟩
    · simp only [rxDef, syncRxId] at e2
      rw [idOf_eq _ _ _ (by omega) (by omega)] at e2
      rw [e2, Option.some.injEq] at b3
      subst b3
      simp only [hwAccepts, beq_iff_eq] at b4
      have key : ∀ x : Nat, x < 0x800 → (BitVec.ofNat 16 x &&& 0x7FF#16) = BitVec.ofNat 16 x := by
        intro x hx
        apply BitVec.eq_of_toNat_eq
        simp only [BitVec.toNat_and, BitVec.toNat_ofNat]
        rw [show (2047 % 2 ^ 16) = 2 ^ 11 - 1 from rfl, Nat.and_two_pow_sub_one_eq_mod]
        omega
      rw [key _ b2, key _ (by omega)] at b4
      have := congrArg BitVec.toNat b4
      simp only [BitVec.toNat_ofNat] at this
      omega
    · show handlerRx env s now a dlc id data = _
      rw [handlerRx_eq]
      unfold Fixed at hnf
      rw [if_neg (by intro h; apply hnf; rcases h with h | h <;> simp [h])]
      unfold reqPart
      rw [if_neg (by intro h; apply hnf; simp [h])]
      congr 1
      unfold dataPart
      rw [if_pos ((bit_and_iff _ _ (by omega)).2 hbit), hs]
  · omega

/-- C15: a frame with the identifier of receive object `j` of a registered module `i` and the
configured length changes the application object of that receive object, as the conversion function
says, and its counter, and nothing else that can be observed. -/
theorem C15_matching_frame (env : Env) (he : EnvOk env) (s : Slave) (h : SReach env s) (now obj dlc id : Nat)
    (data : List Byte) (hbus : Delivered env s.node (.frame now obj dlc id data))
    (i j : Nat) (hi : (s.node.rows i).typ ≠ []) (hj : j < (s.node.rows i).rxObj)
    (hid : id = 0x200 + 4 * ((s.node.rows i).nr - 1) + j)
    (hdlc : env.chk = true → dlc = (s.node.rows i).rxDlcSync j) :
    ∃ s', step env s (.frame now obj dlc id data) = some s' ∧
      (∀ k, (s.node.rows i).rxMainSync j = .app k →
        s'.node.mem ((s.node.rows i).rx j) = (env.rxConv k data dlc (s.node.mem ((s.node.rows i).rx j))).1) ∧
      ((s.node.rows i).rxMainSync j = .dummy → s'.node.mem = s.node.mem) ∧
      (∀ p, p ≠ (s.node.rows i).rx j → s'.node.mem p = s.node.mem p) ∧
      s'.sync.cnt i j = (s.sync.cnt i j + 1) % 65536 ∧
      (∀ i' j', (i', j') ≠ (i, j) → s'.sync.cnt i' j' = s.sync.cnt i' j') ∧
      s'.node.log = s.node.log ∧ s'.node.errq = s.node.errq ∧ s'.node.rows = s.node.rows ∧
      s'.sync = { s.sync with cnt := s'.sync.cnt } ∧ s'.link = s.link ∧ s'.sys = s.sys := by
  have h8 := he.m8
  obtain ⟨-, ti⟩ := h.inv he
  obtain ⟨r1, r2, r3⟩ := ti.registered he hi
  obtain ⟨i', hreg, ⟨j', hj', e⟩, hs⟩ := sync_frame he h hbus (by omega) (by omega)
  obtain ⟨q1, q2, q3⟩ := ti.registered he hreg
  have := ti.distinct hreg hi (by omega)
  subst this
  have hsn : syncNrOfId id = (s.node.rows i').nr := by
    rw [syncNrOfId_eq _ (by omega) (by omega)]; omega
  have hso : syncObjOfId id = j := by unfold syncObjOfId; omega
  refine ⟨_, hs, ?_⟩
  have hx : rxData env s i' id dlc data =
      (let r := s.node.callRx env ((s.node.rows i').rxMainSync j) data ((s.node.rows i').rx j) dlc
      ({ s with node := r.1, sync := { s.sync with
        cnt := upd s.sync.cnt i' (upd (s.sync.cnt i') j (u16 (s.sync.cnt i' j + 1))) } }, r.2)) := by
    unfold rxData
    simp only [hso, hsn]
    rw [if_neg (by simp), if_neg (by rintro ⟨a, b⟩; exact b (hdlc a))]
  rw [hx]
  simp only
  unfold callRx
  refine ⟨?_, ?_, ?_, ?_, ?_, ?_, ?_, ?_, trivial, trivial, trivial⟩
  · intro k hk; rw [hk]; simp
  · intro hk; rw [hk]
  · intro p hp
    split <;> try rfl
    exact upd_other _ _ hp
  · simp [u16]
  · intro a b hab
    by_cases ha : a = i'
    · subst ha
      have hb : b ≠ j := by rintro rfl; exact hab rfl
      simp only [upd_same]; exact upd_other _ _ hb
    · rw [upd_other _ _ ha]
  · split <;> rfl
  · split <;> rfl
  · split <;> rfl

/-- C15: every other frame in the range of synchronous identifiers leaves the whole state as it
is (no data, no counter; also no entry in the error queue). -/
theorem C15_other_frames (env : Env) (he : EnvOk env) (s : Slave) (h : SReach env s) (now obj dlc id : Nat)
    (data : List Byte) (hbus : Delivered env s.node (.frame now obj dlc id data)) (h1 : 0x200 ≤ id) (h2 : id < 0x600)
    (hno : ∀ i j, (s.node.rows i).typ ≠ [] → j < (s.node.rows i).rxObj →
      id = 0x200 + 4 * ((s.node.rows i).nr - 1) + j → env.chk = true ∧ dlc ≠ (s.node.rows i).rxDlcSync j) :
    step env s (.frame now obj dlc id data) = some s := by
  have h8 := he.m8
  obtain ⟨-, ti⟩ := h.inv he
  obtain ⟨i, hreg, ⟨j, hj, e⟩, hs⟩ := sync_frame he h hbus h1 h2
  obtain ⟨q1, q2, q3⟩ := ti.registered he hreg
  obtain ⟨hc, hd⟩ := hno i j hreg hj e
  have hso : syncObjOfId id = j := by unfold syncObjOfId; omega
  rw [hs]
  congr 1
  unfold rxData
  simp only [hso]
  split
  · rfl
  · rw [if_pos ⟨hc, hd⟩]

/-- module 5: the frame 0x211 with two bytes is stored in object 101, with one byte it is dropped -/
example : ((exStart.bind fun s => run exEnv s [exF5']).map fun s => (s.node.mem 100, s.node.mem 101, s.sync.cnt 0 1)) =
    some ([100, 101], [3, 4], 1) ∧
    ((exStart.bind fun s => run exEnv s [.frame 0 4 1 0x211 [3]]).map fun s => (s.node.mem 101, s.sync.cnt 0 1)) =
    some ([101, 102], 0) := by decide +kernel

/-- the error code of the internal function, which the handler throws away -/
theorem C15_error_code (env : Env) (s : Slave) (tp id dlc : Nat) (data : List Byte) (hc : env.chk = true) :
    (syncNrOfId id ≠ (s.node.rows tp).nr → rxData env s tp id dlc data = (s, E.rxWrongNr)) ∧
    (syncNrOfId id = (s.node.rows tp).nr → dlc ≠ (s.node.rows tp).rxDlcSync (id % 4) →
      rxData env s tp id dlc data = (s, E.rxWrongDlc)) := by
  constructor
  · intro h; unfold rxData; simp only [hc, h, true_and, ne_eq, not_false_eq_true, if_true]
  · intro h1 h2
    unfold rxData
    have : syncObjOfId id = id % 4 := rfl
    simp only [hc, h1, true_and, ne_eq, not_true, if_false, this, h2, not_false_eq_true, if_true]

example : exEnv.chk = true ∧ syncNrOfId 0x211 = 5 ∧ E.rxWrongNr ≠ E.ok ∧ E.rxWrongDlc ≠ E.ok := by decide

end Slave
end LiCan
