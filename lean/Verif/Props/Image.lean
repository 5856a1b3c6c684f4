import Verif.Spec.Image
import Verif.Props.Sync
/-! # C14 exactly: the process image in every history -/
namespace LiCan
open Node Spec
namespace Slave

/-- a frame the controller hands over for a message object of a module has the identifier of one of its objects -/
theorem slot_own {env : Env} (he : EnvOk env) {n : Node} (h : TableInv env n) {obj id : Nat} {d : ObjDef} (ho : obj < env.nObj)
    (hdef : n.hw.defs obj = some d) (hid : id < 0x800)
    (hacc : hwAccepts (BitVec.ofNat 16 d.id) d.mask (BitVec.ofNat 16 id) = true) {i : Nat} (hs : n.slotRow obj = some i) :
    (n.rows i).typ ≠ [] ∧ ∃ j < (n.rows i).rxObj, id = 0x200 + 4 * ((n.rows i).nr - 1) + j := by
  have h32 := he.o32
  have h8 := he.m8
  have h0 := h
  obtain ⟨t, g, hn⟩ := h
  have hm := (slotRow_iff g.hw h32 obj (by omega) i).1 hs
  obtain ⟨j', hj', e1, e2⟩ := g.hw.slot _ hm
  simp only [rxBd] at hj'
  split at hj'
  · next hl =>
    have hreg := (g.sim.registered i).2 hl
    obtain ⟨q1, q2, q3⟩ := h0.registered he hreg
    refine ⟨hreg, j', hj', ?_⟩
    simp only [rxDef, syncRxId] at e2
    rw [idOf_eq _ _ _ (by omega) (by omega)] at e2
    rw [e2, Option.some.injEq] at hdef
    subst hdef
    simp only [hwAccepts, beq_iff_eq] at hacc
    have key : ∀ x : Nat, x < 0x800 → (BitVec.ofNat 16 x &&& 0x7FF#16) = BitVec.ofNat 16 x := by
      intro x hx
      apply BitVec.eq_of_toNat_eq
      simp only [BitVec.toNat_and, BitVec.toNat_ofNat]
      rw [show (2047 % 2 ^ 16) = 2 ^ 11 - 1 from rfl, Nat.and_two_pow_sub_one_eq_mod]
      omega
    rw [key _ hid, key _ (by omega)] at hacc
    have := congrArg BitVec.toNat hacc
    simp only [BitVec.toNat_ofNat] at this
    omega
  · omega

theorem counts_isFor {env : Env} (he : EnvOk env) {n : Node} (h : TableInv env n) (hd : DefInv env n.hw) {now obj dlc id : Nat}
    {data : List Byte} (hbus : Delivered env n (.frame now obj dlc id data)) (i j : Nat) :
    counts env n i j obj dlc id = true ↔ Image.isFor env.chk n dlc id i j := by
  obtain ⟨b1, b2, d, b3, b4⟩ := hbus
  constructor
  · intro hc
    have hc' := hc
    simp only [counts, Bool.and_eq_true, decide_eq_true_eq, beq_iff_eq, Bool.or_eq_true, Bool.not_eq_true'] at hc
    obtain ⟨⟨⟨_, hs⟩, ho'⟩, -⟩ := hc
    obtain ⟨hreg, j', hj', e⟩ := slot_own he h b1 b3 b2 b4 hs
    obtain ⟨q1, q2, q3⟩ := h.registered he hreg
    have : j' = j := by rw [← ho']; unfold syncObjOfId; omega
    subst this
    exact ⟨hreg, hj', (h.counts_iff he hd i j' obj dlc id d b1 b3 b2 b4 hreg hj').1 hc'⟩
  · rintro ⟨h1, h2, h3⟩
    exact (h.counts_iff he hd i j obj dlc id d b1 b3 b2 b4 h1 h2).2 h3

/-- the model's bookkeeping against the specification's -/
structure ImOk (s : Slave) (im : Image) : Prop where
  inv : ReqInv s
  flag : s.sync.prFlag = 0xFFFF ↔ im.asked.isSome = true
  len : ∀ l, im.asked = some l → s.sync.prDlc = l
  cnt : ∀ i j, s.sync.cnt i j = im.heard i j % 65536
  valid : ∀ i, s.sync.valid i = im.valid i

/-- inputs that leave the bookkeeping alone -/
theorem ImOk.same {s s' : Slave} {im : Image} (h : ImOk s im) (h1 : s'.sync.errPr = s.sync.errPr) (h2 : s'.sync.prFlag = s.sync.prFlag)
    (h3 : s'.sync.prCnt = s.sync.prCnt) (h4 : s'.sync.prDlc = s.sync.prDlc) (h5 : s'.sync.cnt = s.sync.cnt)
    (h6 : s'.sync.valid = s.sync.valid) : ImOk s' im :=
  ⟨h.inv.congr h1 h2 h3, by rw [h2]; exact h.flag, fun l hl => by rw [h4]; exact h.len l hl, fun i j => by rw [h5]; exact h.cnt i j,
   fun i => by rw [h6]; exact h.valid i⟩

theorem ImOk.init (env : Env) (mem : Nat → List Byte) (b : Nat) : ImOk (Slave.init env (Slave.boot mem) b).1 {} := by
  have h0 : ImOk (Slave.boot mem) {} := ⟨.boot mem, by simp [Slave.boot], fun l hl => (nomatch hl), fun _ _ => rfl, fun _ => rfl⟩
  unfold Slave.init
  dsimp only
  split
  · exact h0.same rfl rfl rfl rfl rfl rfl
  · exact h0.same rfl rfl rfl rfl rfl rfl

/-- what a process request does to the bookkeeping -/
theorem ImOk.request {env : Env} {s s' : Slave} {im : Image} {now dlc : Nat} (h : ImOk s im)
    (hp : processRequest env s now dlc = some s') : ImOk s' (im.request env.maxMod s.node dlc) := by
  obtain ⟨r1, r2, r3, -⟩ := h.inv.request hp
  obtain ⟨-, -, -, h3, -⟩ := processRequest_spec hp
  have k := checkImage_keeps env (Slave.reqRx s) now h.inv.reqRx
  simp only at k
  have q1 : (Slave.reqRx s).sync.prFlag = s.sync.prFlag := by rw [reqRx_eq]
  have q2 : (Slave.reqRx s).sync.prDlc = s.sync.prDlc := by rw [reqRx_eq]
  have q3 : (Slave.reqRx s).sync.cnt = s.sync.cnt := by rw [reqRx_eq]
  have q4 : (Slave.reqRx s).sync.valid = s.sync.valid := by rw [reqRx_eq]
  have q5 : (Slave.reqRx s).node.rows = s.node.rows := by rw [reqRx_eq]
  have q6 : (Slave.reqRx s).node.nrMod = s.node.nrMod := by rw [reqRx_eq]
  have hok : ∀ i, okMod (Slave.reqRx s) i = im.complete s.node i := by
    intro i
    unfold okMod Image.complete
    rw [q5, q3]
    congr 1
    funext j
    rw [h.cnt]
  refine ⟨r1, by simp [r2, Image.request], fun l hl => ?_, fun i j => ?_, fun i => ?_⟩
  · rw [r3]; exact Option.some.inj hl
  · rw [h3]
    show (checkImage env (Slave.reqRx s) now).sync.cnt i j = _
    simp only [Image.request]
    by_cases ha : im.asked.isSome = true
    · rw [k.2.2.2.2.2.2.2.2.2.2.2.2.2.1 (q1.trans (h.flag.2 ha))]
      simp only [cleared, q5, q3, ha, true_and]
      split
      · rfl
      · exact h.cnt i j
    · have hf : s.sync.prFlag = 0 := by
        rcases h.inv.st with e | e
        · exact e.1
        · exact absurd (h.flag.1 e.1) ha
      rw [k.2.2.2.2.2.2.2.2.2.2.2.2.2.2.1 (q1.trans hf), q3, if_neg fun e => ha e.1]
      exact h.cnt i j
  · rw [h3]
    show (checkImage env (Slave.reqRx s) now).sync.valid i = _
    simp only [Image.request]
    rcases checkImage_cases env (Slave.reqRx s) now h.inv.reqRx with ⟨c1, e⟩ | ⟨c1, c2, e⟩ | ⟨c1, c2, c3⟩
    · have hj : im.judges = false := by
        unfold Image.judges
        cases ha : im.asked with
        | none => rfl
        | some l =>
          have := h.flag.2 (by rw [ha]; rfl)
          rw [q1, this] at c1; exact absurd c1 (by decide)
      rw [e, q4, hj, if_neg (by simp)]; exact h.valid i
    · have hj : im.judges = false := by
        unfold Image.judges
        cases ha : im.asked with
        | none => rfl
        | some l =>
          have := h.len l ha
          rw [q2, this] at c2
          simp only [Option.any_some, decide_eq_false_iff_not]; omega
      rw [e, hj, if_neg (by simp)]
      show (Slave.reqRx s).sync.valid i = _
      rw [q4]; exact h.valid i
    · have hj : im.judges = true := by
        unfold Image.judges
        rw [q1] at c1
        have := h.flag.1 c1
        cases ha : im.asked with
        | none => rw [ha] at this; exact nomatch this
        | some l =>
          have := h.len l ha
          rw [q2, this] at c2
          simp only [Option.any_some, decide_eq_true_eq]; exact c2
      obtain ⟨v, mt, er, e, hv, -⟩ := checkImage_eval env (Slave.reqRx s) now c1 c2 c3
      rw [e]
      show v i = _
      rw [hv i, q6, hok, q4, hj]
      simp only [true_and, h.valid i]

/-- one input -/
theorem ImOk.step {env : Env} (he : EnvOk env) {s s' : Slave} {im : Image} {x : In} (h : ImOk s im) (hr : SReach env s)
    (hb : BasicIn env x) (hbus : Delivered env s.node x) (hs : Slave.step env s x = some s') :
    ImOk s' (im.next env s.node x) := by
  obtain ⟨-, ti⟩ := hr.inv he
  cases x with
  | frame now obj dlc id data =>
    by_cases ho : obj = 0
    · subst ho
      have := h.request (request_step he ti hs)
      simpa [Image.next] using this
    · have h' : handlerRx env s now obj dlc id data = some s' := hs
      rw [handlerRx_eq] at h'
      obtain ⟨-, -, -, -, -, c, d6, d7⟩ := dataPart_keeps env s obj dlc id data
      have base : ImOk (dataPart env s obj dlc id data) (im.next env s.node (.frame now obj dlc id data)) := by
        simp only [Image.next, if_neg ho, Image.frame]
        refine ⟨h.inv.congr (by rw [d6]) (by rw [d6]) (by rw [d6]), by rw [d6]; exact h.flag, fun l hl => by rw [d6]; exact h.len l hl,
          fun i j => ?_, fun i => by rw [d6]; exact h.valid i⟩
        rw [d6]
        show c i j = _
        rw [d7]
        have hc := counts_isFor he ti (hr.defs he) hbus i j
        by_cases hf : Image.isFor env.chk s.node dlc id i j
        · rw [if_pos (hc.2 hf)]
          simp only [if_pos hf]
          rw [h.cnt]
          simp only [u16]; omega
        · rw [if_neg fun k => hf (hc.1 k)]
          simp only [if_neg hf]
          exact h.cnt i j
      generalize im.next env s.node (.frame now obj dlc id data) = im' at *
      generalize dataPart env s obj dlc id data = s1 at *
      have hreq : reqPart env s1 now obj dlc = some s1 := by simp [reqPart, ho]
      rw [hreq] at h'
      split at h'
      · simp only [Option.bind_some, sysPart, Option.map_eq_some_iff] at h'
        obtain ⟨⟨r, e⟩, h4, h5⟩ := h'
        obtain ⟨⟨cy, hc⟩, -⟩ := sysMsg_keeps h4
        subst h5
        refine base.same ?_ ?_ ?_ ?_ ?_ ?_
        · show r.sync.errPr = _; rw [hc]
        · show r.sync.prFlag = _; rw [hc]
        · show r.sync.prCnt = _; rw [hc]
        · show r.sync.prDlc = _; rw [hc]
        · show r.sync.cnt = _; rw [hc]
        · show r.sync.valid = _; rw [hc]
      · injection h' with h'; rw [← h']; exact base
  | trigger now =>
    injection hs with hs; subst hs
    obtain ⟨p, hp⟩ := trigger_eq env s now
    rw [hp]; exact h.same rfl rfl rfl rfl rfl rfl
  | getPeriode =>
    injection hs with hs; subst hs
    unfold getPeriode; simp only
    split <;> exact h.same rfl rfl rfl rfl rfl rfl
  | setCycle t =>
    injection hs with hs; subst hs
    unfold setCycle
    split <;> exact h.same rfl rfl rfl rfl rfl rfl
  | validCb typ nr f =>
    injection hs with hs; subst hs
    rcases setModCb_keeps env s typ nr (fun v tp => { v with validCb := upd v.validCb tp f }) with e | ⟨tp, e⟩ <;> rw [e] <;>
      exact h.same rfl rfl rfl rfl rfl rfl
  | invalidCb typ nr f =>
    injection hs with hs; subst hs
    rcases setModCb_keeps env s typ nr (fun v tp => { v with invalidCb := upd v.invalidCb tp f }) with e | ⟨tp, e⟩ <;> rw [e] <;>
      exact h.same rfl rfl rfl rfl rfl rfl
  | reqCb typ nr f =>
    injection hs with hs; subst hs
    rcases setModCb_keeps env s typ nr (fun v tp => { v with reqCb := upd v.reqCb tp f }) with e | ⟨tp, e⟩ <;> rw [e] <;>
      exact h.same rfl rfl rfl rfl rfl rfl
  | timeCb f =>
    injection hs with hs; subst hs
    unfold setTimeCb; split <;> exact h.same rfl rfl rfl rfl rfl rfl
  | resetCb f =>
    injection hs with hs; subst hs
    unfold setResetCb; split <;> exact h.same rfl rfl rfl rfl rfl rfl
  | init baud => exact absurd hb id
  | setMode m => injection hs with hs; subst hs; exact h.same rfl rfl rfl rfl rfl rfl
  | setBaud b => injection hs with hs; subst hs; exact h.same rfl rfl rfl rfl rfl rfl
  | table o => injection hs with hs; subst hs; exact h.same rfl rfl rfl rfl rfl rfl
  | allCb f => injection hs with hs; subst hs; exact h.same rfl rfl rfl rfl rfl rfl
  | firstCb f => injection hs with hs; subst hs; exact h.same rfl rfl rfl rfl rfl rfl
  | firstStatusCb f => injection hs with hs; subst hs; exact h.same rfl rfl rfl rfl rfl rfl

/-- what the specification says after a history; the module table is read where the inputs arrive -/
def imageOf (env : Env) : Slave → Image → List In → Image
  | _, im, [] => im
  | s, im, x :: xs => match Slave.step env s x with
    | none => im
    | some s' => imageOf env s' (im.next env s.node x) xs

/-- the controller hands over only frames its message objects accept -/
def OnBus (env : Env) : Slave → List In → Prop
  | _, [] => True
  | s, x :: xs => Delivered env s.node x ∧ ∀ s', Slave.step env s x = some s' → OnBus env s' xs

theorem image_run {env : Env} (he : EnvOk env) : ∀ (xs : List In) {s s' : Slave} {im : Image}, ImOk s im → SReach env s →
    (∀ x ∈ xs, BasicIn env x) → OnBus env s xs → run env s xs = some s' → ImOk s' (imageOf env s im xs) ∧ SReach env s'
  | [], s, s', im, h, hr, _, _, e => by injection e with e; rw [← e]; exact ⟨h, hr⟩
  | x :: xs, s, s', im, h, hr, hb, ho, e => by
    simp only [run, Option.bind_eq_some_iff] at e
    obtain ⟨s1, h1, h2⟩ := e
    simp only [imageOf, h1]
    exact image_run he xs (h.step he hr (hb x (by simp)) ho.1 h1) (hr.step (hb x (by simp)) h1) (fun y hy => hb y (by simp [hy]))
      (ho.2 s1 h1) h2

/-- C14, exactly, for every history after `lcsa_init`: registrations, modules switched silent, awake, active or critical, requests of any
length, frames in any order (only without a change of type or number over the bus, `BasicIn`).  The verdicts the application can ask for are those of `Spec.Image`: at a process request which follows another
one of at most one byte, a module becomes valid iff each of its objects that are switched on arrived exactly once (modulo 65536) since its
count was last started anew, which happens at every request but the first, for the objects switched on at that time. -/
theorem C14_image (env : Env) (he : EnvOk env) (mem : Nat → List Byte) (b : Nat) (hok : (Slave.init env (Slave.boot mem) b).2 = E.ok)
    (xs : List In) (hb : ∀ x ∈ xs, BasicIn env x) (hbus : OnBus env (Slave.init env (Slave.boot mem) b).1 xs) (s : Slave)
    (h : run env (Slave.init env (Slave.boot mem) b).1 xs = some s) :
    (∀ i, s.sync.valid i = (imageOf env (Slave.init env (Slave.boot mem) b).1 {} xs).valid i) ∧
    ∀ i j, s.sync.cnt i j = (imageOf env (Slave.init env (Slave.boot mem) b).1 {} xs).heard i j % 65536 := by
  have k := (image_run he xs (.init env mem b) ⟨mem, b, [], hok, by simp, rfl⟩ hb hbus h).1
  exact ⟨k.valid, k.cnt⟩

/-- the calls of a process request -/
theorem ImOk.calls {env : Env} {s s' : Slave} {im : Image} {now dlc : Nat} (k : ImOk s im) (hp : processRequest env s now dlc = some s') :
    ∃ fr, (∀ e ∈ fr, ∃ f ok, e = Ev.frame f ok) ∧ s'.node.log = fr ++
      (callsOf (if s.sync.first then [] else [s.sync.firstCb]) ++ callsOf ((List.range s.node.nrMod).map s.sync.reqCb) ++
       (if im.judges then
          callsOf ((List.range s.node.nrMod).map fun i => if im.complete s.node i then s.sync.validCb i else s.sync.invalidCb i) ++
          callsOf (if (List.range s.node.nrMod).all (im.complete s.node) then [s.sync.allCb] else [])
        else [])).reverse ++ s.node.log := by
  obtain ⟨-, -, -, -, fr, hfr, hof⟩ := processRequest_spec hp
  refine ⟨fr, hof, ?_⟩
  have hreq : reqEvs s = callsOf (if s.sync.first then [] else [s.sync.firstCb]) ++ callsOf ((List.range s.node.nrMod).map s.sync.reqCb) := by
    unfold reqEvs
    rw [flatMap_calls]
    congr 1
    cases s.sync.first
    · cases hc : s.sync.firstCb <;> simp [callsOf, Slave.calls]
    · rfl
  have hlog : (Slave.reqRx s).node.log = (reqEvs s).reverse ++ s.node.log := by rw [reqRx_eq]
  have q1 : (Slave.reqRx s).sync.prFlag = s.sync.prFlag := by rw [reqRx_eq]
  have q2 : (Slave.reqRx s).sync.prDlc = s.sync.prDlc := by rw [reqRx_eq]
  have hok' : ∀ i, okMod s i = im.complete s.node i := by
    intro i
    unfold okMod Image.complete
    congr 1
    funext j
    rw [k.cnt]
  have hjudge : im.judges = true ↔ s.sync.prFlag = 0xFFFF ∧ s.sync.prDlc ≤ 1 := by
    unfold Image.judges
    rw [k.flag]
    cases ha : im.asked with
    | none => simp
    | some l => rw [k.len l ha]; simp
  have himg : imageEvs (Slave.reqRx s) = imageEvs s := by rw [reqRx_eq]; rfl
  have hev : imageEvs s = callsOf ((List.range s.node.nrMod).map fun i => if im.complete s.node i then s.sync.validCb i else s.sync.invalidCb i) ++
      callsOf (if (List.range s.node.nrMod).all (im.complete s.node) then [s.sync.allCb] else []) := by
    have e2 : (List.range s.node.nrMod).flatMap (modEvs s) =
        callsOf ((List.range s.node.nrMod).map fun i => if im.complete s.node i then s.sync.validCb i else s.sync.invalidCb i) := by
      rw [← flatMap_calls]
      rw [List.flatMap_def, List.flatMap_def]
      congr 1
      apply List.map_congr_left
      intro i hi
      simp only [modEvs, hok']
    have e3 : allOk s = (List.range s.node.nrMod).all (im.complete s.node) := by
      unfold allOk
      congr 1
      funext i
      exact hok' i
    unfold imageEvs
    rw [e2, e3]
    congr 1
    cases (List.range s.node.nrMod).all (im.complete s.node) <;> simp [callsOf, Slave.calls]
    cases s.sync.allCb <;> rfl
  rw [hfr]
  rcases checkImage_cases env (Slave.reqRx s) now k.inv.reqRx with ⟨c1, e⟩ | ⟨c1, c2, e⟩ | ⟨c1, c2, c3⟩
  · have hj : im.judges = false := by
      rw [Bool.eq_false_iff]; intro hj
      rw [q1, (hjudge.1 hj).1] at c1; exact absurd c1 (by decide)
    rw [e, hlog, hreq, hj]; simp
  · have hj : im.judges = false := by
      rw [Bool.eq_false_iff]; intro hj
      rw [q2] at c2
      have := (hjudge.1 hj).2; omega
    rw [e]
    show fr ++ (Slave.reqRx s).node.log = _
    rw [hlog, hreq, hj]; simp
  · have hj : im.judges = true := hjudge.2 ⟨by rw [← q1]; exact c1, by rw [← q2]; exact c2⟩
    obtain ⟨v, mt, er, e, -⟩ := checkImage_eval env (Slave.reqRx s) now c1 c2 c3
    rw [e]
    show fr ++ ((imageEvs (Slave.reqRx s)).reverse ++ (Slave.reqRx s).node.log) = _
    rw [himg, hlog, hreq, hj, hev]
    simp only [if_true, List.reverse_append, List.append_assoc]

/-- C14, the calls, exactly: a process request after any such history calls the function for the first request if it is the first,
the request functions of the modules, and if the specification says the modules are judged the valid or not-valid function of each,
and then, iff all are valid, the all-valid function; then only transmission follows. -/
theorem C14_calls (env : Env) (he : EnvOk env) (mem : Nat → List Byte) (b : Nat) (hok : (Slave.init env (Slave.boot mem) b).2 = E.ok)
    (xs : List In) (hb : ∀ x ∈ xs, BasicIn env x) (hbus : OnBus env (Slave.init env (Slave.boot mem) b).1 xs) (s : Slave)
    (h : run env (Slave.init env (Slave.boot mem) b).1 xs = some s) (now dlc : Nat) (s' : Slave)
    (h' : step env s (.frame now 0 dlc 1 []) = some s') :
    let im := imageOf env (Slave.init env (Slave.boot mem) b).1 {} xs
    ∃ fr, (∀ e ∈ fr, ∃ f ok, e = Ev.frame f ok) ∧ s'.node.log = fr ++
      (callsOf (if s.sync.first then [] else [s.sync.firstCb]) ++ callsOf ((List.range s.node.nrMod).map s.sync.reqCb) ++
       (if im.judges then
          callsOf ((List.range s.node.nrMod).map fun i => if im.complete s.node i then s.sync.validCb i else s.sync.invalidCb i) ++
          callsOf (if (List.range s.node.nrMod).all (im.complete s.node) then [s.sync.allCb] else [])
        else [])).reverse ++ s.node.log := by
  intro im
  have hk : imageOf env (Slave.init env (Slave.boot mem) b).1 {} xs = im := rfl
  obtain ⟨k, hr⟩ := image_run he xs (.init env mem b) ⟨mem, b, [], hok, by simp, rfl⟩ hb hbus h
  rw [hk] at k
  clear_value im
  obtain ⟨-, ti⟩ := hr.inv he
  exact k.calls (request_step he ti h')

/-! ## An example: a module is silenced and awakened between requests -/

/-- `Delivered`, computed -/
def busB (env : Env) (n : Node) : In → Bool
  | .frame _ obj _ id _ => decide (obj < env.nObj) && decide (id < 0x800) &&
      (n.hw.defs obj).any fun d => hwAccepts (BitVec.ofNat 16 d.id) d.mask (BitVec.ofNat 16 id)
  | _ => true

def onBusB (env : Env) : Slave → List In → Bool
  | _, [] => true
  | s, x :: xs => busB env s.node x && match Slave.step env s x with
    | none => true
    | some s' => onBusB env s' xs

theorem onBus_of {env : Env} : ∀ (xs : List In) {s : Slave}, onBusB env s xs = true → OnBus env s xs
  | [], _, _ => trivial
  | x :: xs, s, h => by
    simp only [onBusB, Bool.and_eq_true] at h
    refine ⟨?_, fun s' h' => ?_⟩
    · cases x with
      | frame now obj dlc id data =>
        have := h.1
        simp only [busB, Bool.and_eq_true, decide_eq_true_eq, Option.any_eq_true_iff_get] at this
        obtain ⟨⟨h1, h2⟩, h3, h4⟩ := this
        exact ⟨h1, h2, _, (Option.some_get h3).symm, h4⟩
      | _ => trivial
    · have := h.2
      rw [h'] at this
      exact onBus_of xs this

/-- the two modules, and the history of `C14_counterexample_silent_awake` -/
def exImage : List In :=
  exOps.map In.table ++ [exReq 1, exReq 2, exF9, .table (.silentAwake 1 0), exReq 3, exReq 4, .table (.silentAwake 1 1), exF9,
    exF5, exF5', exReq 5]

/-- the hypotheses hold -/
example : (Slave.init exEnv (Slave.boot exMem) 250).2 = E.ok ∧ (∀ x ∈ exImage, BasicIn exEnv x) ∧
    OnBus exEnv (Slave.init exEnv (Slave.boot exMem) 250).1 exImage ∧
    (run exEnv (Slave.init exEnv (Slave.boot exMem) 250).1 exImage).isSome = true := by
  refine ⟨by decide +kernel, ?_, onBus_of _ (by decide +kernel), by decide +kernel⟩
  intro x hx
  rcases List.mem_append.1 hx with h | h
  · obtain ⟨o, ho, rfl⟩ := List.mem_map.1 h
    simp only [exOps, List.mem_cons, List.not_mem_nil, or_false] at ho
    rcases ho with rfl | rfl <;> simp [BasicIn, Basic, exTpl]
  · simp only [List.mem_cons, List.not_mem_nil, or_false] at h
    rcases h with rfl | rfl | rfl | rfl | rfl | rfl | rfl | rfl | rfl | rfl | rfl <;> simp [BasicIn, Basic, exReq, exF9, exF5, exF5']

/-- what the specification says: the frame counted before module 9 was silenced is still there, so it was heard twice -/
example : (let im := imageOf exEnv (Slave.init exEnv (Slave.boot exMem) 250).1 {} exImage.dropLast;
    (im.asked, im.heard 0 0, im.heard 0 1, im.heard 1 0)) = (some 0, 1, 1, 2) ∧
    (let im := imageOf exEnv (Slave.init exEnv (Slave.boot exMem) 250).1 {} exImage;
    (im.valid 0, im.valid 1, im.heard 1 0)) = (true, false, 0) := by decide +kernel

end Slave
end LiCan
