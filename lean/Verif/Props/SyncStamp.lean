import Verif.Props.SyncTime
/-! # Time of the last valid process image (C82) -/
namespace LiCan
open Node Spec
namespace Spec

/-- The length of the request, if the input is a process request. -/
def reqLen : In → Option Nat
  | .frame _ 0 l _ _ => some l
  | _ => none

/-- A request after this history judges the modules: it is not the first one, and the one before had at most
one byte. -/
def Judging (xs : List In) : Prop := ∃ l, (xs.filterMap reqLen).getLast? = some l ∧ l ≤ 1

instance (xs : List In) : Decidable (Judging xs) :=
  match h : (xs.filterMap reqLen).getLast? with
  | some l => if hl : l ≤ 1 then isTrue ⟨l, h, hl⟩ else isFalse fun ⟨k, e, hk⟩ => by rw [h] at e; cases e; exact hl hk
  | none => isFalse fun ⟨k, e, _⟩ => by rw [h] at e; cases e

/-- The time at which the input happened. -/
def timeOf : In → Nat
  | .frame now _ _ _ _ => now
  | _ => 0

/-- After the history `pre` from power-on, `x` is a process request that finds module `i` valid. -/
def FoundValid (env : Env) (mem : Nat → List Byte) (i : Nat) (pre : List In) (x : In) : Prop :=
  isRequest x ∧ Judging pre ∧ ∃ s s', Slave.run env (Slave.boot mem) pre = some s ∧ Slave.step env s x = some s' ∧
    i < s.node.nrMod ∧ s'.sync.valid i = true

end Spec
namespace Slave

/-- what an input that is no request leaves alone -/
def jd (v : SyncVars) : (Nat → Bool) × (Nat → Nat) × Nat × Nat × Nat := (v.valid, v.modTime, v.timeValid, v.prFlag, v.prDlc)

theorem jd_step {env : Env} {s s' : Slave} {x : In} (hx : ¬ isRequest x) (h : Slave.step env s x = some s') :
    jd s'.sync = jd s.sync := by
  cases x with
  | frame now obj dlc id data =>
    have h0 : ¬ obj = 0 := by intro e; subst e; exact hx trivial
    have h' : handlerRx env s now obj dlc id data = some s' := h
    rw [handlerRx_eq] at h'
    obtain ⟨-, -, -, -, -, c, hc, -⟩ := dataPart_keeps env s obj dlc id data
    have h1 : jd (dataPart env s obj dlc id data).sync = jd s.sync := by rw [hc]; rfl
    generalize dataPart env s obj dlc id data = s1 at *
    unfold reqPart at h'
    rw [if_neg h0] at h'
    split at h'
    · simp only [Option.bind_some, sysPart, Option.map_eq_some_iff] at h'
      obtain ⟨⟨r, e⟩, h4, h5⟩ := h'
      obtain ⟨⟨c, hc⟩, -⟩ := sysMsg_keeps h4
      subst h5
      show jd r.sync = _
      rw [hc]; exact h1
    · injection h' with h'; subst h'; exact h1
  | trigger now =>
    injection h with h; subst h
    obtain ⟨p, hp⟩ := trigger_eq env s now
    rw [hp]; rfl
  | getPeriode =>
    injection h with h; subst h
    unfold getPeriode; simp only
    split <;> rfl
  | setCycle t =>
    injection h with h; subst h
    unfold setCycle
    split <;> rfl
  | validCb typ nr f =>
    injection h with h; subst h
    rcases setModCb_keeps env s typ nr (fun v tp => { v with validCb := upd v.validCb tp f }) with e | ⟨tp, e⟩ <;> rw [e] <;> rfl
  | invalidCb typ nr f =>
    injection h with h; subst h
    rcases setModCb_keeps env s typ nr (fun v tp => { v with invalidCb := upd v.invalidCb tp f }) with e | ⟨tp, e⟩ <;> rw [e] <;> rfl
  | reqCb typ nr f =>
    injection h with h; subst h
    rcases setModCb_keeps env s typ nr (fun v tp => { v with reqCb := upd v.reqCb tp f }) with e | ⟨tp, e⟩ <;> rw [e] <;> rfl
  | timeCb f =>
    injection h with h; subst h
    unfold setTimeCb; split <;> rfl
  | resetCb f =>
    injection h with h; subst h
    unfold setResetCb; split <;> rfl
  | init baud =>
    injection h with h; subst h
    unfold Slave.init; simp only
    split <;> rfl
  | setMode m => injection h with h; subst h; rfl
  | setBaud b => injection h with h; subst h; rfl
  | table o => injection h with h; subst h; rfl
  | allCb f => injection h with h; subst h; rfl
  | firstCb f => injection h with h; subst h; rfl
  | firstStatusCb f => injection h with h; subst h; rfl

/-- flag and length tell the last request -/
structure LastReq (xs : List In) (s : Slave) : Prop where
  req : ReqInv s
  flag : s.sync.prFlag = if (xs.filterMap reqLen).getLast?.isSome then 0xFFFF else 0
  len : ∀ l, (xs.filterMap reqLen).getLast? = some l → s.sync.prDlc = l

theorem reqLen_none {x : In} (h : ¬ isRequest x) : reqLen x = none := by
  cases x with
  | frame now obj dlc id data =>
    cases obj with
    | zero => exact absurd trivial h
    | succ n => rfl
  | _ => rfl

theorem isRequest_frame {x : In} (h : isRequest x) : ∃ now dlc id data, x = .frame now 0 dlc id data := by
  cases x with
  | frame now obj dlc id data =>
    cases obj with
    | zero => exact ⟨now, dlc, id, data, rfl⟩
    | succ n => exact h.elim
  | _ => exact h.elim

theorem LastReq.step {env : Env} {xs : List In} {s s' : Slave} {x : In} (h : LastReq xs s) (hs : Slave.step env s x = some s') :
    LastReq (xs ++ [x]) s' := by
  by_cases hx : isRequest x
  · obtain ⟨now, dlc, id, data, rfl⟩ := isRequest_frame hx
    have h' : handlerRx env s now 0 dlc id data = some s' := hs
    rw [handlerRx_eq, if_neg (by simp)] at h'
    unfold reqPart at h'
    rw [if_pos rfl] at h'
    obtain ⟨-, -, -, -, -, c, hc, -⟩ := dataPart_keeps env s 0 dlc id data
    have hd : ReqInv (dataPart env s 0 dlc id data) := h.req.congr (by rw [hc]) (by rw [hc]) (by rw [hc])
    obtain ⟨r1, r2, r3, -⟩ := hd.request h'
    refine ⟨r1, ?_, ?_⟩
    · rw [r2]; simp [reqLen]
    · intro l hl
      rw [r3]
      simpa [reqLen] using hl
  · have j := jd_step hx hs
    unfold jd at j
    simp only [Prod.mk.injEq] at j
    obtain ⟨-, -, -, j1, j2⟩ := j
    have e : (xs ++ [x]).filterMap reqLen = xs.filterMap reqLen := by
      rw [List.filterMap_append]; simp [reqLen_none hx]
    exact ⟨h.req.step hs, by rw [j1, e]; exact h.flag, by rw [j2, e]; exact h.len⟩

theorem LastReq.run {env : Env} (xs : List In) : ∀ {pre : List In} {s s' : Slave}, LastReq pre s →
    Slave.run env s xs = some s' → LastReq (pre ++ xs) s' := by
  induction xs with
  | nil => intro pre s s' h hr; injection hr with hr; subst hr; simpa using h
  | cons x xs ih =>
    intro pre s s' h hr
    simp only [Slave.run, Option.bind_eq_some_iff] at hr
    obtain ⟨s1, h1, h2⟩ := hr
    simpa using ih (h.step h1) h2

theorem LastReq.boot (mem : Nat → List Byte) : LastReq [] (Slave.boot mem) := ⟨ReqInv.boot mem, rfl, by simp⟩

/-- a request, seen from the judgement -/
theorem request_judges {env : Env} {xs : List In} {s s' : Slave} {now dlc id : Nat} {data : List Byte} (h : LastReq xs s)
    (hs : Slave.step env s (.frame now 0 dlc id data) = some s') :
    (Judging xs →
      (∀ i, s'.sync.modTime i = if i < s.node.nrMod ∧ s'.sync.valid i = true then now else s.sync.modTime i) ∧
      s'.sync.timeValid = if (List.range s.node.nrMod).all s'.sync.valid then now else s.sync.timeValid) ∧
    (¬ Judging xs → s'.sync.modTime = s.sync.modTime ∧ s'.sync.timeValid = s.sync.timeValid ∧ s'.sync.valid = s.sync.valid ∧
      ∃ l, OnlyFrames l ∧ s'.node.log = l ++ (reqEvs s).reverse ++ s.node.log) := by
  have h' : handlerRx env s now 0 dlc id data = some s' := hs
  rw [handlerRx_eq, if_neg (by simp)] at h'
  unfold reqPart at h'
  rw [if_pos rfl] at h'
  obtain ⟨hl, -, -, hlog, -, c, hc, -⟩ := dataPart_keeps env s 0 dlc id data
  have hd : ReqInv (dataPart env s 0 dlc id data) := h.req.congr (by rw [hc]) (by rw [hc]) (by rw [hc])
  have ev : reqEvs (dataPart env s 0 dlc id data) = reqEvs s := by
    unfold reqEvs
    rw [hc, hl.nrMod]
  have nm : (dataPart env s 0 dlc id data).node.nrMod = s.node.nrMod := hl.nrMod
  generalize dataPart env s 0 dlc id data = s1 at *
  obtain ⟨-, -, -, ks, l, kl, kf⟩ := processRequest_spec h'
  dsimp only at ks kl
  have rs : (reqRx s1).sync = { s.sync with cnt := c, first := true } := by rw [reqRx_eq]; dsimp only; rw [hc]
  have rn : (reqRx s1).node.nrMod = s.node.nrMod := by rw [reqRx_eq]; exact nm
  have rl : (reqRx s1).node.log = (reqEvs s).reverse ++ s.node.log := by rw [reqRx_eq]; dsimp only; rw [ev, hlog]
  have ri : ReqInv (reqRx s1) := hd.reqRx
  generalize reqRx s1 = s2 at *
  refine ⟨?_, ?_⟩
  · rintro ⟨k, hk, k1⟩
    have f : s2.sync.prFlag = 0xFFFF := by rw [rs]; dsimp only; rw [h.flag, hk]; rfl
    have dl : s2.sync.prDlc ≤ 1 := by rw [rs]; dsimp only; rw [h.len k hk]; exact k1
    have pc : s2.sync.prCnt = 1 := by
      rcases ri.st with h1 | h1
      · rw [f] at h1; exact absurd h1.1 (by decide)
      · exact h1.2
    obtain ⟨v, mt, er, e, e1, e2, -⟩ := checkImage_eval env s2 now f dl pc
    rw [e] at ks
    have kv : s'.sync.valid = v := by rw [ks]
    have km : s'.sync.modTime = mt := by rw [ks]
    have kt : s'.sync.timeValid = if allOk s2 then now else s2.sync.timeValid := by rw [ks]
    refine ⟨?_, ?_⟩
    · intro i
      rw [kv, km, e1, e2, rn, rs]
      by_cases hi : i < s.node.nrMod
      · simp [hi]
      · simp [hi]
    · rw [kt, kv]
      have : allOk s2 = (List.range s.node.nrMod).all v := by
        unfold allOk
        rw [rn, Bool.eq_iff_iff, List.all_eq_true, List.all_eq_true]
        constructor
        · intro a i hi
          rw [e1, rn, if_pos (List.mem_range.1 hi)]; exact a i hi
        · intro a i hi
          have := a i hi
          rw [e1, rn, if_pos (List.mem_range.1 hi)] at this; exact this
      rw [this, rs]
  · intro hj
    have kk : (checkImage env s2 now).sync.modTime = s2.sync.modTime ∧ (checkImage env s2 now).sync.timeValid = s2.sync.timeValid ∧
        (checkImage env s2 now).sync.valid = s2.sync.valid ∧ (checkImage env s2 now).node = s2.node := by
      rcases checkImage_cases env s2 now ri with ⟨-, e⟩ | ⟨-, -, e⟩ | ⟨f, dl, -⟩
      · rw [e]; exact ⟨rfl, rfl, rfl, rfl⟩
      · rw [e]; exact ⟨rfl, rfl, rfl, rfl⟩
      · exfalso
        rw [rs] at f dl
        dsimp only at f dl
        rw [h.flag] at f
        cases hk : (xs.filterMap reqLen).getLast? with
        | none => rw [hk] at f; exact absurd f (by decide)
        | some k => exact hj ⟨k, hk, by rw [← h.len k hk]; exact dl⟩
    obtain ⟨k1, k2, k3, k4⟩ := kk
    refine ⟨?_, ?_, ?_, l, kf, ?_⟩
    · rw [ks]; dsimp only; rw [k1, rs]
    · rw [ks]; dsimp only; rw [k2, rs]
    · rw [ks]; dsimp only; rw [k3, rs]
    · rw [kl, k4, rl, List.append_assoc]

/-- C82.  The function handed out for a registered type is that of the first registered module of this type;
an unknown type is refused and no function is handed out. -/
theorem C82_time_function (env : Env) (he : EnvOk env) (s : Slave) (typ : List Byte) :
    (∀ k, (timeFnc env s typ).1 = some k ↔
      (k < env.maxMod ∧ (s.node.rows k).typ = typ ∧ ∀ j < k, (s.node.rows j).typ ≠ typ)) ∧
    ((timeFnc env s typ).2 = E.ok ↔ ∃ k < env.maxMod, (s.node.rows k).typ = typ) := by
  have m8 := he.m8
  unfold timeFnc findType
  cases hf : (List.range env.maxMod).find? fun i => (s.node.rows i).typ = typ with
  | none =>
    rw [List.find?_eq_none] at hf
    dsimp only
    refine ⟨fun k => ⟨fun h => by simp at h, fun ⟨a, b, _⟩ => absurd (hf k (List.mem_range.2 a)) (by simp [b])⟩, ?_⟩
    constructor
    · intro h; exact absurd h (by decide)
    · rintro ⟨k, a, b⟩; exact absurd (hf k (List.mem_range.2 a)) (by simp [b])
  | some t =>
    rw [List.find?_range_eq_some] at hf
    obtain ⟨h1, h2, h3⟩ := hf
    have h2 : t < env.maxMod := by simpa using h2
    have h1 : (s.node.rows t).typ = typ := by simpa using h1
    have h3 : ∀ j < t, (s.node.rows j).typ ≠ typ := by intro j hj; simpa using h3 j hj
    dsimp only
    rw [if_pos ⟨h2, by omega⟩]
    refine ⟨fun k => ⟨?_, ?_⟩, fun _ => ⟨t, h2, h1⟩, fun _ => rfl⟩
    · intro h; cases h; exact ⟨h2, h1, h3⟩
    · rintro ⟨a, b, c⟩
      rcases Nat.lt_trichotomy k t with h | h | h
      · exact absurd b (h3 k h)
      · rw [h]
      · exact absurd h1 (c t h)

/-- C82.  What is not a judging request changes neither the reported time of any module nor the verdict; the
first request and a request after one of more than one byte also tell the application nothing about validity. -/
theorem C82_time_unchanged (env : Env) (mem : Nat → List Byte) (xs : List In) (s s' : Slave) (x : In)
    (hr : run env (Slave.boot mem) xs = some s) (hs : Slave.step env s x = some s') (hx : ¬ isRequest x ∨ ¬ Judging xs) :
    (∀ i, validTime s' i = validTime s i ∧ s'.sync.valid i = s.sync.valid i) ∧ s'.sync.timeValid = s.sync.timeValid ∧
    (isRequest x → ∃ l, (∀ e ∈ l, ∃ f ok, e = Ev.frame f ok) ∧
      s'.node.log = l ++ (callsOf (if s.sync.first then [] else [s.sync.firstCb]) ++
          callsOf ((List.range s.node.nrMod).map s.sync.reqCb)).reverse ++ s.node.log) := by
  have hl : LastReq xs s := by simpa using LastReq.run xs (LastReq.boot mem) hr
  by_cases hq : isRequest x
  · have hj : ¬ Judging xs := by rcases hx with h | h; exact absurd hq h; exact h
    obtain ⟨now, dlc, id, data, rfl⟩ := isRequest_frame hq
    obtain ⟨h1, h2, h3, l, h4, h5⟩ := (request_judges hl hs).2 hj
    refine ⟨fun i => ⟨by unfold validTime; rw [h1], by rw [h3]⟩, h2, fun _ => ⟨l, h4, ?_⟩⟩
    rw [h5]
    have e : reqEvs s = callsOf (if s.sync.first then [] else [s.sync.firstCb]) ++
        callsOf ((List.range s.node.nrMod).map s.sync.reqCb) := by
      unfold reqEvs
      rw [flatMap_calls]
      generalize s.sync.first = b
      generalize s.sync.firstCb = f
      congr 1
      cases b
      · cases f <;> rfl
      · rfl
    rw [e]
  · have j := jd_step hq hs
    unfold jd at j
    simp only [Prod.mk.injEq] at j
    obtain ⟨j1, j2, j3, -⟩ := j
    exact ⟨fun i => ⟨by unfold validTime; rw [j2], by rw [j1]⟩, j3, fun h => absurd h hq⟩

/-- C82.  After any history from power-on, the time reported for row `i` is the time of the last process
request that found the module valid; zero if there was none. -/
theorem C82_last_valid_time (env : Env) (mem : Nat → List Byte) (i : Nat) (xs : List In) (s : Slave)
    (hr : run env (Slave.boot mem) xs = some s) :
    (validTime s i = 0 ∧ ∀ pre x post, xs = pre ++ x :: post → ¬ FoundValid env mem i pre x) ∨
    ∃ pre x post, xs = pre ++ x :: post ∧ FoundValid env mem i pre x ∧ validTime s i = timeOf x ∧
      ∀ a y b, post = a ++ y :: b → ¬ FoundValid env mem i (pre ++ x :: a) y := by
  have key : ∀ n, ∀ xs : List In, xs.length = n → ∀ s, run env (Slave.boot mem) xs = some s →
      (validTime s i = 0 ∧ ∀ pre x post, xs = pre ++ x :: post → ¬ FoundValid env mem i pre x) ∨
      ∃ pre x post, xs = pre ++ x :: post ∧ FoundValid env mem i pre x ∧ validTime s i = timeOf x ∧
        ∀ a y b, post = a ++ y :: b → ¬ FoundValid env mem i (pre ++ x :: a) y := by
    intro n
    induction n with
    | zero =>
      intro xs hn s hr
      have : xs = [] := List.length_eq_zero_iff.1 hn
      subst this
      injection hr with hr; subst hr
      exact .inl ⟨rfl, fun pre x post h => by simp at h⟩
    | succ n ih =>
      intro xs hn s' hr
      rcases List.eq_nil_or_concat xs with h | ⟨ys, y, rfl⟩
      · rw [h] at hn; simp at hn
      · rw [List.concat_eq_append] at *
        have hy : ys.length = n := by simpa using hn
        rw [run_append] at hr
        obtain ⟨s, h1, h2⟩ := Option.bind_eq_some_iff.1 hr
        have h2 : Slave.step env s y = some s' := by
          simp only [run, Option.bind_eq_some_iff] at h2
          obtain ⟨q, h3, h4⟩ := h2
          injection h4 with h4; subst h4; exact h3
        have hl : LastReq ys s := by simpa using LastReq.run ys (LastReq.boot mem) h1
        -- splitting the history at the last input
        have split : ∀ {pre : List In} {x : In} {post : List In}, ys ++ [y] = pre ++ x :: post →
            (post = [] ∧ pre = ys ∧ x = y) ∨ ∃ q, post = q ++ [y] ∧ ys = pre ++ x :: q := by
          intro pre x post h
          rcases List.eq_nil_or_concat post with e | ⟨q, z, e⟩
          · subst e
            have := List.append_inj' h rfl
            refine .inl ⟨rfl, this.1.symm, ?_⟩
            have := this.2
            simp at this
            exact this.symm
          · rw [List.concat_eq_append] at e
            subst e
            have : ys ++ [y] = (pre ++ x :: q) ++ [z] := by rw [h]; simp
            have := List.append_inj' this rfl
            have e2 : y = z := by simpa using this.2
            exact .inr ⟨q, by rw [e2], this.1⟩
        by_cases hg : FoundValid env mem i ys y
        · right
          refine ⟨ys, y, [], rfl, hg, ?_, fun a z b h => by simp at h⟩
          obtain ⟨q1, q2, t, t', q3, q4, q5, q6⟩ := hg
          rw [h1] at q3; cases q3
          rw [h2] at q4; cases q4
          obtain ⟨now, dlc, id, data, rfl⟩ := isRequest_frame q1
          have := ((request_judges hl h2).1 q2).1 i
          rw [if_pos ⟨q5, q6⟩] at this
          exact this
        · have same : validTime s' i = validTime s i := by
            by_cases hq : isRequest y
            · obtain ⟨now, dlc, id, data, rfl⟩ := isRequest_frame hq
              by_cases hj : Judging ys
              · have := ((request_judges hl h2).1 hj).1 i
                rw [if_neg (fun h => hg ⟨hq, hj, s, s', h1, h2, h.1, h.2⟩)] at this
                exact this
              · unfold validTime; rw [((request_judges hl h2).2 hj).1]
            · have j := jd_step hq h2
              unfold jd at j
              simp only [Prod.mk.injEq] at j
              unfold validTime; rw [j.2.1]
          rw [same]
          rcases ih ys hy s h1 with ⟨a, b⟩ | ⟨pre, x, post, a, b, c, d⟩
          · refine .inl ⟨a, ?_⟩
            intro pre x post h
            rcases split h with ⟨-, e1, e2⟩ | ⟨q, e1, e2⟩
            · rw [e1, e2]; exact hg
            · exact b pre x q e2
          · refine .inr ⟨pre, x, post ++ [y], by rw [a]; simp, b, c, ?_⟩
            intro a' z b' h
            rcases List.eq_nil_or_concat b' with e | ⟨q, w, e⟩
            · subst e
              have := List.append_inj' h rfl
              have e2 : y = z := by simpa using this.2
              rw [← this.1, ← a, ← e2]; exact hg
            · rw [List.concat_eq_append] at e
              subst e
              have : post ++ [y] = (a' ++ z :: q) ++ [w] := by rw [h]; simp
              exact d a' z q (List.append_inj' this rfl).1
  exact key _ xs rfl s hr

/-- two modules from power-on -/
def exBoot : List In := .init 250 :: exOps.map In.table

/-- period one valid for both modules (judged at time 3), period two only for module 5 (judged at time 4) -/
def exTwo : List In := exBoot ++ [exReq 1, exReq 2, exF5, exF9, exF5', exReq 3, exF5, exF5', exReq 4]

/-- the times reported, and the hypothesis of `C82_last_valid_time` -/
example : ((run exEnv (Slave.boot exMem) exTwo).map fun s => (validTime s 0, validTime s 1, s.sync.timeValid)) = some (4, 3, 3) := by
  decide +kernel
example : (run exEnv (Slave.boot exMem) exTwo).isSome = true ∧ ¬ Judging (exBoot ++ [.frame 1 0 2 1 [0, 0]]) ∧
    Judging (exBoot ++ [exReq 1]) := by decide +kernel
example : ((run exEnv (Slave.boot exMem) exTwo).map fun s => (timeFnc exEnv s [77, 68, 66], timeFnc exEnv s [1])) =
    some ((some 1, E.ok), (none, E.typeNotFound)) := by decide +kernel

/-- Two modules of one type, numbers 5 and 9: only the second is valid, at time 3.  The function handed out for
the type reports 0; no argument gives the time of module 9. -/
theorem C82_counterexample_same_type : ∃ s, run exEnv (Slave.boot exMem) [.init 250,
      .table (.add (exTpl 65 1 1) 5 (fun j => 100 + j) (fun j => 110 + j)), .table (.add (exTpl 65 1 1) 9 (fun j => 120 + j) (fun j => 130 + j)),
      exReq 1, exReq 2, .frame 0 5 2 0x220 [5, 6], exReq 3] = some s ∧
    (s.node.rows 0).typ = [77, 68, 65] ∧ (s.node.rows 1).typ = [77, 68, 65] ∧ s.sync.valid 0 = false ∧ s.sync.valid 1 = true ∧
    timeFnc exEnv s [77, 68, 65] = (some 0, E.ok) ∧ validTime s 0 = 0 ∧ validTime s 1 = 3 := by
  have h : (run exEnv (Slave.boot exMem) [.init 250,
      .table (.add (exTpl 65 1 1) 5 (fun j => 100 + j) (fun j => 110 + j)), .table (.add (exTpl 65 1 1) 9 (fun j => 120 + j) (fun j => 130 + j)),
      exReq 1, exReq 2, .frame 0 5 2 0x220 [5, 6], exReq 3]).any (fun s =>
      ((s.node.rows 0).typ == [77, 68, 65]) && ((s.node.rows 1).typ == [77, 68, 65]) && !s.sync.valid 0 && s.sync.valid 1 &&
      (timeFnc exEnv s [77, 68, 65] == (some 0, E.ok)) && (validTime s 0 == 0) && (validTime s 1 == 3)) = true := by decide +kernel
  obtain ⟨s, h1, h2⟩ := (Option.any_eq_true ..).1 h
  refine ⟨s, h1, ?_⟩
  simpa [and_assoc] using h2

end Slave
end LiCan
