import Verif.Lemmas.ImageStack
import Verif.Lemmas.StackExample
/-! # The verdicts on the modules and the baud rate search (C146) -/
namespace LiCan
open Node
namespace Spec

/-- The frame is process data for object `j` of row `i`: the message object belongs to the row, the last two bits of the identifier are the
object, and (if that is checked) the number in the identifier and the length are those of the row. -/
def Image.lands (chk : Bool) (n : Node) (obj dlc id i j : Nat) : Prop :=
  Node.bit obj &&& n.hw.isrRx ≠ 0 ∧ n.slotRow obj = some i ∧ id % 4 = j ∧
  (chk = true → syncNrOfId id = (n.rows i).nr ∧ dlc = (n.rows i).rxDlcSync j)

instance (chk : Bool) (n : Node) (obj dlc id i j : Nat) : Decidable (Image.lands chk n obj dlc id i j) := by
  unfold Image.lands; infer_instance

/-- the arrival of a frame -/
def Image.arrive (im : Image) (chk : Bool) (n : Node) (obj dlc id : Nat) : Image :=
  { im with heard := fun i j => if Image.lands chk n obj dlc id i j then im.heard i j + 1 else im.heard i j }

/-- a frame that is handled; message object 0 takes the process requests -/
def Image.handle (im : Image) (env : Env) (n : Node) (obj dlc id : Nat) : Image :=
  if obj = 0 then (im.arrive env.chk n obj dlc id).request env.maxMod n dlc else im.arrive env.chk n obj dlc id

/-- a frame with a standard identifier, received while no search is on -/
def noticed (s : Stack) : SIn → Bool
  | .rx _ _ _ _ ext _ => !ext && decide (s.rc.state = .off)
  | _ => false

/-- one input of the stack -/
def Image.nextS (env : Env) (s : Stack) (im : Image) : SIn → Image
  | .rx _ obj dlc id ext _ => if ext = false ∧ s.rc.state = .off then im.handle env s.slv.node obj dlc id else im
  | _ => im

/-- the bookkeeping over a history -/
def imageS (env : AEnv) : Stack → Image → List SIn → Image
  | _, im, [] => im
  | s, im, x :: xs => match s.step env x with
    | none => im
    | some s' => imageS env s' (im.nextS env.toEnv s x) xs

/-- a process request -/
def asks : SIn → Bool
  | .rx _ obj _ _ ext _ => !ext && obj == 0
  | _ => false

/-- the input is a frame for object `j` of row `i`; `all`: also while a search is on -/
def brings (env : Env) (all : Bool) (i j : Nat) (s : Stack) : SIn → Nat
  | .rx _ obj dlc id ext _ =>
    if ext = false ∧ (all = true ∨ s.rc.state = .off) ∧ Image.lands env.chk s.slv.node obj dlc id i j then 1 else 0
  | _ => 0

/-- how often object `j` of row `i` arrived during the inputs; `all`: also while a search was on -/
def came (env : AEnv) (all : Bool) (i j : Nat) : Stack → List SIn → Nat
  | _, [] => 0
  | s, x :: xs => brings env.toEnv all i j s x +
    (match s.step env x with
      | none => 0
      | some s' => came env all i j s' xs)

/-- no frame of the inputs satisfies `p`, which may look at the stack it meets -/
def never (env : AEnv) (p : Stack → SIn → Bool) : Stack → List SIn → Prop
  | _, [] => True
  | s, x :: xs => p s x = false ∧ ∀ s', s.step env x = some s' → never env p s' xs

end Spec

namespace Slave
open Spec

theorem counts_lands (env : Env) (n : Node) (i j obj dlc id : Nat) :
    counts env n i j obj dlc id = true ↔ Image.lands env.chk n obj dlc id i j := by
  simp only [counts, Image.lands, syncObjOfId, Bool.and_eq_true, decide_eq_true_eq, beq_iff_eq, Bool.or_eq_true, Bool.not_eq_true']
  constructor
  · rintro ⟨⟨⟨a, b⟩, c⟩, d⟩
    exact ⟨a, b, c, fun h => d.elim (fun k => by rw [h] at k; exact nomatch k) fun k => k⟩
  · rintro ⟨a, b, c, d⟩
    refine ⟨⟨⟨a, b⟩, c⟩, ?_⟩
    cases hk : env.chk
    · exact .inl rfl
    · exact .inr (d hk)

theorem request_congr {im : Image} {n n' : Node} (l : Light n n') (m dlc : Nat) : im.request m n' dlc = im.request m n dlc := by
  unfold Image.request Image.complete
  rw [l.rows, l.nrMod]

/-- a frame at the slave -/
theorem ImOk.handler {env : Env} {s s' : Slave} {im : Image} {now obj dlc id : Nat} {data : List Byte} (h : ImOk s im)
    (h' : handlerRx env s now obj dlc id data = some s') : ImOk s' (im.handle env s.node obj dlc id) := by
  rw [handlerRx_eq] at h'
  obtain ⟨l, -, -, -, -, c, d6, d7⟩ := dataPart_keeps env s obj dlc id data
  have base : ImOk (dataPart env s obj dlc id data) (im.arrive env.chk s.node obj dlc id) := by
    refine ⟨h.inv.congr (by rw [d6]) (by rw [d6]) (by rw [d6]), by rw [d6]; exact h.flag, fun l hl => by rw [d6]; exact h.len l hl,
      fun i j => ?_, fun i => by rw [d6]; exact h.valid i⟩
    rw [d6]
    show c i j = _
    rw [d7]
    have hc := counts_lands env s.node i j obj dlc id
    simp only [Image.arrive]
    by_cases hf : Image.lands env.chk s.node obj dlc id i j
    · rw [if_pos (hc.2 hf), if_pos hf, h.cnt]
      simp only [u16]; omega
    · rw [if_neg fun k => hf (hc.1 k), if_neg hf]
      exact h.cnt i j
  unfold Image.handle
  generalize im.arrive env.chk s.node obj dlc id = im' at *
  generalize dataPart env s obj dlc id data = s1 at *
  by_cases ho : obj = 0
  · rw [if_neg (by omega)] at h'
    unfold reqPart at h'
    rw [if_pos ho] at h'
    rw [if_pos ho, ← request_congr l]
    exact base.request h'
  · have hreq : reqPart env s1 now obj dlc = some s1 := by simp [reqPart, ho]
    rw [hreq] at h'
    rw [if_neg ho]
    split at h'
    · simp only [Option.bind_some, sysPart, Option.map_eq_some_iff] at h'
      obtain ⟨⟨r, e⟩, h4, h5⟩ := h'
      obtain ⟨⟨cy, hc⟩, -⟩ := sysMsg_keeps h4
      subst h5
      refine base.same ?_ ?_ ?_ ?_ ?_ ?_
      · show r.sync.errPr = _; rw [hc]
      · show r.sync.prFlag = _; rw [hc]
      · show r.sync.prCnt = _; rw [hc]
      · show r.sync.prDlc = _; rw [hc]
      · show r.sync.cnt = _; rw [hc]
      · show r.sync.valid = _; rw [hc]
    · injection h' with h'; rw [← h']; exact base

end Slave

namespace Stack
open Spec Slave

variable {env : AEnv}

theorem ImOk.six {s s' : Stack} {im : Image} (h : ImOk s.slv im) (e : Same s.six s'.six) : ImOk s'.slv im := by
  unfold Same Stack.six at e
  simp only [Prod.mk.injEq] at e
  obtain ⟨e1, e2, e3, e4, e5, e6⟩ := e
  exact h.same e1 e2 e3 e4 e5 e6

theorem image_step {s s' : Stack} {im : Image} {x : SIn} (h : ImOk s.slv im) (hs : s.step env x = some s') :
    ImOk s'.slv (im.nextS env.toEnv s x) := by
  by_cases hx : ∀ now obj dlc id ext data, x ≠ .rx now obj dlc id ext data
  · have e : im.nextS env.toEnv s x = im := by
      cases x with
      | rx now obj dlc id ext data => exact absurd rfl (hx now obj dlc id ext data)
      | _ => rfl
    rw [e]
    exact ImOk.six h (step_img hs hx)
  · cases x with
    | rx now obj dlc id ext data =>
      simp only [Stack.step, Stack.rx] at hs
      simp only [Image.nextS]
      by_cases ho : s.rc.state = .off
      · rw [if_neg (show ¬ (s.setR fun c => { c with pending := .msg }).rc.state ≠ .off from fun k => k ho)] at hs
        cases ext with
        | true =>
          rw [if_pos rfl] at hs
          rw [if_neg (by simp)]
          rw [← Option.some.inj hs]; exact h
        | false =>
          rw [if_neg (by simp)] at hs
          rw [if_pos ⟨rfl, ho⟩]
          simp only [Option.map_eq_some_iff] at hs
          obtain ⟨v, hv, rfl⟩ := hs
          have k : ImOk (Stack.setSlv env (s.setR fun c => { c with pending := .msg }) v).slv
              (im.handle env.toEnv s.slv.node obj dlc id) := h.handler hv
          exact ImOk.six k (((processTx_img env _ now).trans (ctrlRx_img env _ obj id data)).trans (dataRx_img env _ obj dlc data))
      · rw [if_pos (show (s.setR fun c => { c with pending := .msg }).rc.state ≠ .off from ho)] at hs
        rw [if_neg fun k => ho k.2]
        rw [← Option.some.inj hs]; exact h
    | _ => exact absurd (fun _ _ _ _ _ _ e => nomatch e) hx

theorem image_runS : ∀ (xs : List SIn) {s s' : Stack} {im : Image}, ImOk s.slv im → s.run env xs = some s' →
    ImOk s'.slv (imageS env s im xs)
  | [], s, s', im, h, e => by injection e with e; rw [← e]; exact h
  | x :: xs, s, s', im, h, e => by
    simp only [run, Option.bind_eq_some_iff] at e
    obtain ⟨s1, h1, h2⟩ := e
    simp only [imageS, h1]
    exact image_runS xs (image_step h h1) h2

theorem boot_im (mem : Nat → List Byte) (info : XInfo) : ImOk (boot mem info).slv {} :=
  ⟨.boot mem, by simp [Stack.boot, Slave.boot], fun l hl => (nomatch hl), fun _ _ => rfl, fun _ => rfl⟩

/-- C146, exactly, for every history of the whole stack after power-on: frames of all kinds, searches, transfers, the tunnel, changes of type
and number, further calls of lcsa_init.  The verdicts are those of the bookkeeping, which skips every frame received while a search is on. -/
theorem C146_image (mem : Nat → List Byte) (info : XInfo) (xs : List SIn) (s : Stack) (h : (boot mem info).run env xs = some s) :
    (∀ i, s.slv.sync.valid i = (imageS env (boot mem info) {} xs).valid i) ∧
    ∀ i j, s.slv.sync.cnt i j = (imageS env (boot mem info) {} xs).heard i j % 65536 :=
  have k := image_runS xs (boot_im mem info) h
  ⟨k.valid, k.cnt⟩

/-- one frame that is no request -/
theorem next_tally (i j : Nat) (s : Stack) (im : Image) (x : SIn) (h : (noticed s x && asks x) = false) :
    (im.nextS env.toEnv s x).asked = im.asked ∧ (im.nextS env.toEnv s x).valid = im.valid ∧
    (im.nextS env.toEnv s x).heard i j = im.heard i j + brings env.toEnv false i j s x := by
  cases x with
  | rx now obj dlc id ext data =>
    simp only [Image.nextS, brings]
    by_cases hc : ext = false ∧ s.rc.state = .off
    · rw [if_pos hc]
      have ho : obj ≠ 0 := by
        intro e
        simp [noticed, asks, hc.1, hc.2, e] at h
      unfold Image.handle
      rw [if_neg ho]
      by_cases hl : Image.lands env.chk s.slv.node obj dlc id i j
      · rw [if_pos ⟨hc.1, .inr hc.2, hl⟩]; exact ⟨rfl, rfl, if_pos hl⟩
      · rw [if_neg fun k => hl k.2.2]; exact ⟨rfl, rfl, if_neg hl⟩
    · rw [if_neg hc, if_neg fun k => hc ⟨k.1, k.2.1.elim (fun e => nomatch e) fun e => e⟩]
      exact ⟨rfl, rfl, rfl⟩
  | _ => exact ⟨rfl, rfl, rfl⟩

/-- inputs without a request that is handled: the arrivals add up -/
theorem tally (i j : Nat) : ∀ (xs : List SIn) {s s' : Stack} (im : Image), never env (fun s x => noticed s x && asks x) s xs →
    s.run env xs = some s' →
    (imageS env s im xs).asked = im.asked ∧ (imageS env s im xs).valid = im.valid ∧
    (imageS env s im xs).heard i j = im.heard i j + came env false i j s xs
  | [], s, s', im, _, _ => ⟨rfl, rfl, rfl⟩
  | x :: xs, s, s', im, hn, e => by
    obtain ⟨h1, h2⟩ := hn
    simp only [run, Option.bind_eq_some_iff] at e
    obtain ⟨t, hs, e⟩ := e
    simp only [imageS, came, hs]
    obtain ⟨a, b, c⟩ := tally i j xs (im.nextS env.toEnv s x) (h2 t hs) e
    obtain ⟨a', b', c'⟩ := next_tally (env := env) i j s im x h1
    rw [a, b, c, a', b', c']
    exact ⟨rfl, rfl, by omega⟩

theorem imageS_append : ∀ (xs ys : List SIn) {s s' : Stack} (im : Image), s.run env xs = some s' →
    imageS env s im (xs ++ ys) = imageS env s' (imageS env s im xs) ys
  | [], ys, s, s', im, e => by injection e with e; rw [e]; rfl
  | x :: xs, ys, s, s', im, e => by
    simp only [run, Option.bind_eq_some_iff] at e
    obtain ⟨t, hs, e⟩ := e
    simp only [List.cons_append, imageS, hs]
    exact imageS_append xs ys _ e

theorem came_append (all : Bool) (i j : Nat) : ∀ (xs ys : List SIn) {s s' : Stack}, s.run env xs = some s' →
    came env all i j s (xs ++ ys) = came env all i j s xs + came env all i j s' ys
  | [], ys, s, s', e => by injection e with e; rw [e]; exact (Nat.zero_add _).symm
  | x :: xs, ys, s, s', e => by
    simp only [run, Option.bind_eq_some_iff] at e
    obtain ⟨t, hs, e⟩ := e
    simp only [List.cons_append, came, hs]
    rw [came_append all i j xs ys e]
    omega

/-- C146: one period, exactly.  After any history `ys` in which a process request was handled, a request of at most one byte is handled, then
`xs` without a request that is handled (searches may begin and end, and requests may be ignored), then the next request `q`.  This one makes
the module of row `i` valid iff each of its receive objects arrived exactly once (modulo 65536) while no search was on. -/
theorem C146_period (mem : Nat → List Byte) (info : XInfo) (ys xs : List SIn) (s s0 s1 s2 : Stack) (hr : (boot mem info).run env ys = some s)
    (hk : (imageS env (boot mem info) {} ys).asked.isSome = true) (now dlc id : Nat) (data : List Byte) (hd : dlc ≤ 1) (ho : s.rc.state = .off)
    (hs : s.step env (.rx now 0 dlc id false data) = some s0) (hx : never env (fun s x => noticed s x && asks x) s0 xs)
    (h1 : s0.run env xs = some s1) (now' dlc' id' : Nat) (data' : List Byte) (ho' : s1.rc.state = .off)
    (h2 : s1.step env (.rx now' 0 dlc' id' false data') = some s2) (i : Nat) (hi : i < s1.slv.node.nrMod) (hm : i < env.maxMod)
    (hsw : (s1.slv.node.rows i).rxObjSync ≤ (s.slv.node.rows i).rxObjSync) :
    s2.slv.sync.valid i = true ↔ ∀ j < (s1.slv.node.rows i).rxObjSync,
      came env false i j s0 (xs ++ [.rx now' 0 dlc' id' false data']) % 65536 = 1 := by
  have k := image_runS ys (boot_im mem info) hr
  generalize imageS env (boot mem info) {} ys = im at k hk
  have k0 := image_step k hs
  have k1 := image_runS xs k0 h1
  have k2 := image_step k1 h2
  have e0 : (im.nextS env.toEnv s (.rx now 0 dlc id false data)).asked = some dlc := by
    simp only [Image.nextS, Image.handle]; rw [if_pos ⟨trivial, ho⟩]; rfl
  have z0 : ∀ j < (s.slv.node.rows i).rxObjSync, (im.nextS env.toEnv s (.rx now 0 dlc id false data)).heard i j = 0 := by
    intro j hj
    simp only [Image.nextS, Image.handle]
    rw [if_pos ⟨trivial, ho⟩]
    exact if_pos ⟨hk, hm, hj⟩
  generalize im.nextS env.toEnv s (.rx now 0 dlc id false data) = im0 at k0 k1 k2 e0 z0
  have tl := fun j => tally i j xs im0 hx h1
  generalize imageS env s0 im0 xs = im1 at k1 k2 tl
  rw [k2.valid]
  have ev : (im1.nextS env.toEnv s1 (.rx now' 0 dlc' id' false data')).valid i =
      (im1.arrive env.chk s1.slv.node 0 dlc' id').complete s1.slv.node i := by
    simp only [Image.nextS, Image.handle]
    rw [if_pos ⟨trivial, ho'⟩]
    refine if_pos ⟨?_, hi⟩
    show (im1.asked.any fun l => l ≤ 1) = true
    rw [(tl 0).1, e0]
    simpa using hd
  rw [ev]
  unfold Image.complete
  rw [List.all_eq_true]
  have each : ∀ j < (s1.slv.node.rows i).rxObjSync, (im1.arrive env.chk s1.slv.node 0 dlc' id').heard i j =
      came env false i j s0 (xs ++ [.rx now' 0 dlc' id' false data']) := by
    intro j hj
    rw [came_append false i j xs _ h1]
    have t := (tl j).2.2
    rw [z0 j (by omega)] at t
    have b : came env false i j s1 [.rx now' 0 dlc' id' false data'] =
        if Image.lands env.chk s1.slv.node 0 dlc' id' i j then 1 else 0 := by
      simp only [came, h2, Nat.add_zero, brings]
      by_cases hl : Image.lands env.chk s1.slv.node 0 dlc' id' i j
      · rw [if_pos hl, if_pos ⟨trivial, .inr ho', hl⟩]
      · rw [if_neg hl, if_neg fun k => hl k.2.2]
    rw [b]
    show (if Image.lands env.chk s1.slv.node 0 dlc' id' i j then im1.heard i j + 1 else im1.heard i j) = _
    split <;> omega
  constructor
  · intro h j hj
    have := h j (List.mem_range.2 hj)
    rw [each j hj] at this
    simpa using this
  · intro h j hj
    have hj := List.mem_range.1 hj
    rw [each j hj]
    simpa using h j hj

/-- without a search every frame is handled -/
theorem came_all (i j : Nat) : ∀ (xs : List SIn) {s s' : Stack}, never env (fun s _ => decide (s.rc.state ≠ .off)) s xs →
    s.run env xs = some s' → came env false i j s xs = came env true i j s xs
  | [], s, s', _, _ => rfl
  | x :: xs, s, s', hn, e => by
    obtain ⟨h1, h2⟩ := hn
    simp only [run, Option.bind_eq_some_iff] at e
    obtain ⟨t, hs, e⟩ := e
    simp only [came, hs]
    rw [came_all i j xs (h2 t hs) e]
    have ho : s.rc.state = .off := by simpa using h1
    congr 1
    cases x with
    | rx now obj dlc id ext data =>
      simp only [brings]
      by_cases hl : ext = false ∧ Image.lands env.chk s.slv.node obj dlc id i j
      · rw [if_pos ⟨hl.1, .inr ho, hl.2⟩, if_pos ⟨hl.1, .inl trivial, hl.2⟩]
      · rw [if_neg fun k => hl ⟨k.1, k.2.2⟩, if_neg fun k => hl ⟨k.1, k.2.2⟩]
    | _ => rfl

theorem never_asks : ∀ (xs : List SIn) (s : Stack), (∀ x ∈ xs, asks x = false) → never env (fun s x => noticed s x && asks x) s xs
  | [], _, _ => trivial
  | x :: xs, s, h => ⟨show (noticed s x && asks x) = false by rw [h x (by simp), Bool.and_false], fun s' _ => never_asks xs s' fun y hy => h y (by simp [hy])⟩

/-- C146, the part that holds: between the two requests no other one is on the bus and no search is on at any input.  Then the module is
valid iff each of its receive objects was on the bus exactly once.  Missing: periods with a search (`C146_counterexample_mixed`,
`C146_counterexample_lost`). -/
theorem C146_partial (mem : Nat → List Byte) (info : XInfo) (ys xs : List SIn) (s s0 s1 s2 : Stack) (hr : (boot mem info).run env ys = some s)
    (hk : (imageS env (boot mem info) {} ys).asked.isSome = true) (now dlc id : Nat) (data : List Byte) (hd : dlc ≤ 1) (ho : s.rc.state = .off)
    (hs : s.step env (.rx now 0 dlc id false data) = some s0) (hx : ∀ x ∈ xs, asks x = false)
    (hn : never env (fun s _ => decide (s.rc.state ≠ .off)) s0 xs)
    (h1 : s0.run env xs = some s1) (now' dlc' id' : Nat) (data' : List Byte) (ho' : s1.rc.state = .off)
    (h2 : s1.step env (.rx now' 0 dlc' id' false data') = some s2) (i : Nat) (hi : i < s1.slv.node.nrMod) (hm : i < env.maxMod)
    (hsw : (s1.slv.node.rows i).rxObjSync ≤ (s.slv.node.rows i).rxObjSync) :
    s2.slv.sync.valid i = true ↔ ∀ j < (s1.slv.node.rows i).rxObjSync,
      came env true i j s0 (xs ++ [.rx now' 0 dlc' id' false data']) % 65536 = 1 := by
  rw [C146_period mem info ys xs s s0 s1 s2 hr hk now dlc id data hd ho hs (never_asks xs s0 hx) h1 now' dlc' id' data' ho' h2 i hi hm hsw]
  have e : ∀ j, came env false i j s0 (xs ++ [.rx now' 0 dlc' id' false data']) =
      came env true i j s0 (xs ++ [.rx now' 0 dlc' id' false data']) := by
    intro j
    rw [came_append false i j xs _ h1, came_append true i j xs _ h1, came_all i j xs hn h1,
      came_all (s' := s2) i j [.rx now' 0 dlc' id' false data'] ⟨by simpa using ho', fun _ _ => trivial⟩ (by simp only [run, h2]; rfl)]
  simp only [e]

/-- C146: while a search is on, nothing that is received changes a verdict or a count, and whatever else is called: the modules stay as valid
as they were, however long the search takes. -/
theorem C146_frozen : ∀ (xs : List SIn) (s s' : Stack), never env noticed s xs → s.run env xs = some s' →
    s'.slv.sync.valid = s.slv.sync.valid ∧ s'.slv.sync.cnt = s.slv.sync.cnt
  | [], s, s', _, e => by injection e with e; rw [e]; exact ⟨rfl, rfl⟩
  | x :: xs, s, s', hn, e => by
    obtain ⟨h1, h2⟩ := hn
    simp only [run, Option.bind_eq_some_iff] at e
    obtain ⟨t, hs, e⟩ := e
    obtain ⟨a, b⟩ := C146_frozen xs t s' (h2 t hs) e
    have k : Same s.six t.six := by
      by_cases hx : ∀ now obj dlc id ext data, x ≠ .rx now obj dlc id ext data
      · exact step_img hs hx
      · cases x with
        | rx now obj dlc id ext data =>
          simp only [Stack.step, Stack.rx] at hs
          split at hs
          · rw [← Option.some.inj hs]; rfl
          · next ho =>
            have ho : s.rc.state = .off := Classical.byContradiction ho
            have he : ext = true := by simpa [noticed, ho] using h1
            rw [if_pos he] at hs
            rw [← Option.some.inj hs]; rfl
        | _ => exact absurd (fun _ _ _ _ _ _ e => nomatch e) hx
    unfold Same six at k
    simp only [Prod.mk.injEq] at k
    exact ⟨a.trans k.2.2.2.2.2, b.trans k.2.2.2.2.1⟩

/-! ## Examples -/
open Node (exMem)

/-- a process request, the objects 0 and 1 of module 5 and the object of module 9 -/
def imReq (t : Nat) : SIn := .rx t 0 0 1 false []
def im5 (t : Nat) : SIn := .rx t 1 2 0x210 false [1, 2]
def im5' (t : Nat) : SIn := .rx t 4 2 0x211 false [3, 4]
def im9 (t : Nat) : SIn := .rx t 7 2 0x220 false [5, 6]

/-- in operation, one process request -/
def imStart : List SIn := exSetup ++ [.start 10, .process 700 .active .none, imReq 710]

/-- verdicts on both modules after a history -/
def imValid (xs : List SIn) : Option (List Bool) := ((boot exMem exInfo).run exA xs).map fun s => (List.range 2).map s.slv.sync.valid

/-- a complete period, and one without the second object of module 5 -/
example : imValid (imStart ++ [imReq 720, im5 730, im9 731, im5' 732, imReq 740]) = some [true, true] ∧
    imValid (imStart ++ [imReq 720, im5 730, im9 731, imReq 740]) = some [false, true] := by decide +kernel

/-- the frames of two periods with a search: the second object of module 5 is missing in the first, the first object in the second -/
def imBroken : List SIn := [im5 730, im9 731, .process 800 .busOff .none, imReq 810, .process 820 .active .none, im5' 830]

/-- C146 as wished is false: the first object of module 5 was on the bus in one period only, the second in the next one only; the request
between them came during the search and was ignored.  The module is found valid. -/
theorem C146_counterexample_mixed :
    imValid (imStart ++ [imReq 720] ++ imBroken ++ [imReq 840]) = some [true, true] ∧
    imValid (imStart ++ [imReq 720, im5 730, im9 731, imReq 810, im5' 830, imReq 840]) = some [false, false] := by decide +kernel

/-- C146 as wished is false the other way: every object of the modules was on the bus exactly once between two requests, but one of them while
a search was on. -/
theorem C146_counterexample_lost :
    imValid (imStart ++ [imReq 720, im9 731, im5' 732, .process 800 .busOff .none, im5 810, .process 820 .active .none, imReq 840]) =
      some [false, true] := by decide +kernel

/-- a state after a history -/
theorem im_state (ys : List SIn) (p : Stack → Bool) (h : ((boot exMem exInfo).run exA ys).any p = true) :
    ∃ s, (boot exMem exInfo).run exA ys = some s ∧ p s = true := by
  cases e : (boot exMem exInfo).run exA ys with
  | none => rw [e] at h; exact nomatch h
  | some s => rw [e] at h; exact ⟨s, rfl, h⟩

/-- decides `never` -/
def neverB (env : AEnv) (p : Stack → SIn → Bool) : Stack → List SIn → Bool
  | _, [] => true
  | s, x :: xs => !p s x && match s.step env x with
    | none => true
    | some s' => neverB env p s' xs

theorem never_of {p : Stack → SIn → Bool} : ∀ {xs : List SIn} {s : Stack}, neverB env p s xs = true → never env p s xs
  | [], _, _ => trivial
  | x :: xs, s, h => by
    simp only [neverB, Bool.and_eq_true, Bool.not_eq_true'] at h
    refine ⟨h.1, fun s' hs => ?_⟩
    have k := h.2
    rw [hs] at k
    exact never_of k

/-- the hypotheses of `C146_period`: the broken period above -/
example : ∃ s s0 s1 s2, (boot exMem exInfo).run exA imStart = some s ∧ (imageS exA (boot exMem exInfo) {} imStart).asked.isSome = true ∧
    s.rc.state = .off ∧ s.step exA (imReq 720) = some s0 ∧ never exA (fun s x => noticed s x && asks x) s0 imBroken ∧
    s0.run exA imBroken = some s1 ∧ s1.rc.state = .off ∧ s1.step exA (imReq 840) = some s2 ∧ s1.slv.node.nrMod = 2 ∧ 2 ≤ exA.maxMod ∧
    (s1.slv.node.rows 0).rxObjSync = 2 ∧ (s.slv.node.rows 0).rxObjSync = 2 := by
  obtain ⟨s, hs, k⟩ := im_state imStart (fun s : Stack => decide (s.rc.state = .off) && (s.slv.node.rows 0).rxObjSync == 2 &&
    (s.step exA (imReq 720)).any fun s0 : Stack => neverB exA (fun s x => noticed s x && asks x) s0 imBroken && (s0.run exA imBroken).any fun s1 : Stack =>
      decide (s1.rc.state = .off) && s1.slv.node.nrMod == 2 && (s1.slv.node.rows 0).rxObjSync == 2 && (s1.step exA (imReq 840)).isSome)
    (by decide +kernel)
  have ha : (imageS exA (boot exMem exInfo) {} imStart).asked.isSome = true := by decide +kernel
  simp only [Bool.and_eq_true, decide_eq_true_eq, beq_iff_eq, Option.any_eq_true] at k
  obtain ⟨⟨a, b⟩, s0, c, d, s1, e, ⟨⟨f, g⟩, m⟩, n⟩ := k
  obtain ⟨s2, n⟩ := Option.isSome_iff_exists.1 n
  exact ⟨s, s0, s1, s2, hs, ha, a, c, never_of d, e, f, n, g, by decide, m, b⟩

/-- the hypotheses of `C146_partial`: a complete period -/
example : ∃ s s0 s1 s2, (boot exMem exInfo).run exA imStart = some s ∧ (imageS exA (boot exMem exInfo) {} imStart).asked.isSome = true ∧
    s.rc.state = .off ∧ s.step exA (imReq 720) = some s0 ∧ (∀ x ∈ [im5 730, im9 731, im5' 732], asks x = false) ∧
    never exA (fun s _ => decide (s.rc.state ≠ .off)) s0 [im5 730, im9 731, im5' 732] ∧
    s0.run exA [im5 730, im9 731, im5' 732] = some s1 ∧ s1.rc.state = .off ∧ s1.step exA (imReq 840) = some s2 ∧ s1.slv.node.nrMod = 2 ∧
    (s1.slv.node.rows 0).rxObjSync = 2 ∧ (s.slv.node.rows 0).rxObjSync = 2 := by
  obtain ⟨s, hs, k⟩ := im_state imStart (fun s : Stack => decide (s.rc.state = .off) && (s.slv.node.rows 0).rxObjSync == 2 &&
    (s.step exA (imReq 720)).any fun s0 : Stack => neverB exA (fun s _ => decide (s.rc.state ≠ .off)) s0 [im5 730, im9 731, im5' 732] &&
      (s0.run exA [im5 730, im9 731, im5' 732]).any fun s1 : Stack =>
      decide (s1.rc.state = .off) && s1.slv.node.nrMod == 2 && (s1.slv.node.rows 0).rxObjSync == 2 && (s1.step exA (imReq 840)).isSome)
    (by decide +kernel)
  have ha : (imageS exA (boot exMem exInfo) {} imStart).asked.isSome = true := by decide +kernel
  simp only [Bool.and_eq_true, decide_eq_true_eq, beq_iff_eq, Option.any_eq_true] at k
  obtain ⟨⟨a, b⟩, s0, c, d, s1, e, ⟨⟨f, g⟩, m⟩, n⟩ := k
  obtain ⟨s2, n⟩ := Option.isSome_iff_exists.1 n
  exact ⟨s, s0, s1, s2, hs, ha, a, c, by decide, never_of d, e, f, n, g, m, b⟩

/-- the hypotheses of `C146_frozen`: valid modules, a search, frames and requests during it; the modules are still valid -/
example : ∃ s s', never exA noticed s [.process 800 .busOff .none, .process 805 .active .form, imReq 810, im5 811, imReq 812] ∧
    s.run exA [.process 800 .busOff .none, .process 805 .active .form, imReq 810, im5 811, imReq 812] = some s' ∧
    s.slv.sync.valid 0 = true ∧ s'.slv.sync.valid 0 = true := by
  obtain ⟨s, hs, k⟩ := im_state (imStart ++ [imReq 720, im5 730, im9 731, im5' 732, imReq 740]) (fun s => s.slv.sync.valid 0 &&
    neverB exA noticed s [.process 800 .busOff .none, .process 805 .active .form, imReq 810, im5 811, imReq 812] &&
    (s.run exA [.process 800 .busOff .none, .process 805 .active .form, imReq 810, im5 811, imReq 812]).any fun s' =>
      s'.slv.sync.valid 0) (by decide +kernel)
  simp only [Bool.and_eq_true, Option.any_eq_true] at k
  obtain ⟨⟨a, b⟩, s', c, d⟩ := k
  exact ⟨s, s', never_of b, c, a, d⟩

/-- the hypothesis of `C146_image`: the same history -/
example : ∃ s, (boot exMem exInfo).run exA (imStart ++ [imReq 720] ++ imBroken ++ [imReq 840]) = some s ∧ s.slv.sync.valid 0 = true := by
  obtain ⟨s, hs, k⟩ := im_state (imStart ++ [imReq 720] ++ imBroken ++ [imReq 840]) (fun s => s.slv.sync.valid 0) (by decide +kernel)
  exact ⟨s, hs, k⟩

end Stack
end LiCan
