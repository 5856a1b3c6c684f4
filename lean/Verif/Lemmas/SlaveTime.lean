import Verif.Lemmas.SlaveCalls
/-! # Time stamps, cycle time and one-shot callbacks under every input -/
namespace LiCan
open Node
namespace Slave

/-- the part of the state a data frame leaves alone -/
structure DataRel (s s' : Slave) : Prop where
  sync : ∃ c, s'.sync = { s.sync with cnt := c }
  sys : s'.sys = s.sys
  link : s'.link = s.link
  light : Light s.node s'.node
  log : s'.node.log = s.node.log

theorem DataRel.refl (s : Slave) : DataRel s s := ⟨⟨s.sync.cnt, rfl⟩, rfl, rfl, .refl _, rfl⟩

theorem dataPart_rel (env : Env) (s : Slave) (obj dlc id : Nat) (data : List Byte) :
    DataRel s (dataPart env s obj dlc id data) := by
  obtain ⟨h1, h2, h3, h4, h5, c, h6, -⟩ := dataPart_keeps env s obj dlc id data
  exact ⟨⟨c, h6⟩, h3, h2, h1, h4⟩

/-- a process request frame -/
theorem frame_request {env : Env} {s s' : Slave} {now dlc id : Nat} {data : List Byte}
    (h : step env s (.frame now 0 dlc id data) = some s') :
    ∃ s1, DataRel s s1 ∧ processRequest env s1 now dlc = some s' := by
  have h' : handlerRx env s now 0 dlc id data = some s' := h
  rw [handlerRx_eq, if_neg (by omega)] at h'
  exact ⟨_, dataPart_rel .., by simpa [reqPart] using h'⟩

/-- any other frame -/
theorem frame_other {env : Env} {s s' : Slave} {now obj dlc id : Nat} {data : List Byte} (ho : obj ≠ 0)
    (h : step env s (.frame now obj dlc id data) = some s') :
    DataRel s s' ∨ ∃ s1 s2 e, DataRel s s1 ∧ sysMsg env s1 (sysNrOfId id) dlc data = some (s2, e) ∧
      s' = { s2 with node := s2.node.report env e } := by
  have h' : handlerRx env s now obj dlc id data = some s' := h
  rw [handlerRx_eq] at h'
  have hr : ∀ x, reqPart env x now obj dlc = some x := by intro x; unfold reqPart; rw [if_neg ho]
  rw [hr] at h'
  split at h'
  · simp only [Option.bind_some, sysPart, Option.map_eq_some_iff] at h'
    obtain ⟨⟨s2, e⟩, h4, h5⟩ := h'
    exact .inr ⟨_, s2, e, dataPart_rel .., h4, h5.symm⟩
  · injection h' with h'; subst h'
    exact .inl (dataPart_rel ..)

/-- is the input a process request? -/
def isReq : In → Bool
  | .frame _ obj _ _ _ => obj == 0
  | _ => false

/-- an input other than a process request, seen from the timing variables -/
structure TimeRel (env : Env) (s s' : Slave) : Prop where
  stamp : s'.sync.stamp = s.sync.stamp
  cyc : s.sync.cycle ≤ env.perMax → s'.sync.cycle ≤ env.perMax
  per : env.perMax ≤ s.sync.periode → env.perMax ≤ s'.sync.periode

theorem TimeRel.same {env : Env} {s s' : Slave} (h1 : s'.sync.stamp = s.sync.stamp)
    (h2 : s'.sync.cycle = s.sync.cycle) (h3 : s'.sync.periode = s.sync.periode) : TimeRel env s s' :=
  ⟨h1, by rw [h2]; exact id, by rw [h3]; exact id⟩

theorem setCycle_eq (env : Env) (s : Slave) (t : Nat) :
    (setCycle env s t).1 = { s with sync := { s.sync with cycle := min t env.perMax } } := by
  unfold setCycle
  split
  · next h => rw [Nat.min_eq_left h]
  · next h => rw [Nat.min_eq_right (by omega)]

theorem TimeRel.sys {env : Env} {s s' : Slave} {src : List Byte} (h : SysEff env s src s') : TimeRel env s s' := by
  cases h with
  | cycle h =>
    rw [setCycle_eq]
    exact ⟨rfl, fun _ => Nat.min_le_right .., id⟩
  | _ => exact .same rfl rfl rfl

theorem TimeRel.step {env : Env} {s s' : Slave} {x : In} (hx : isReq x = false)
    (h : Slave.step env s x = some s') : TimeRel env s s' := by
  cases x with
  | frame now obj dlc id data =>
    have ho : obj ≠ 0 := by simpa [isReq] using hx
    rcases frame_other ho h with r | ⟨s1, s2, e, r, hm, rfl⟩
    · obtain ⟨c, e⟩ := r.sync
      exact .same (by rw [e]) (by rw [e]) (by rw [e])
    · obtain ⟨c, e⟩ := r.sync
      have t := TimeRel.sys (sysMsg_eff hm)
      exact ⟨by have := t.stamp; rw [e] at this; exact this, by have := t.cyc; rw [e] at this; exact this,
        by have := t.per; rw [e] at this; exact this⟩
  | trigger now =>
    injection h with h; subst h
    unfold trigger
    simp only
    generalize env.t2ms _ = d
    split
    · next hlt => exact ⟨rfl, id, fun (h : env.perMax ≤ s.sync.periode) => show env.perMax ≤ d by omega⟩
    · exact .same rfl rfl rfl
  | getPeriode =>
    injection h with h; subst h
    unfold getPeriode; simp only
    split
    · exact ⟨rfl, id, fun _ => Nat.le_refl _⟩
    · exact .same rfl rfl rfl
  | setCycle t =>
    injection h with h; subst h
    rw [setCycle_eq]
    exact ⟨rfl, fun _ => Nat.min_le_right .., id⟩
  | validCb typ nr f =>
    injection h with h; subst h
    rcases setModCb_keeps env s typ nr (fun v tp => { v with validCb := upd v.validCb tp f }) with e | ⟨tp, e⟩ <;> rw [e] <;>
    exact .same rfl rfl rfl
  | invalidCb typ nr f =>
    injection h with h; subst h
    rcases setModCb_keeps env s typ nr (fun v tp => { v with invalidCb := upd v.invalidCb tp f }) with e | ⟨tp, e⟩ <;> rw [e] <;>
    exact .same rfl rfl rfl
  | reqCb typ nr f =>
    injection h with h; subst h
    rcases setModCb_keeps env s typ nr (fun v tp => { v with reqCb := upd v.reqCb tp f }) with e | ⟨tp, e⟩ <;> rw [e] <;>
    exact .same rfl rfl rfl
  | timeCb f =>
    injection h with h; subst h
    unfold setTimeCb; split <;> exact .same rfl rfl rfl
  | resetCb f =>
    injection h with h; subst h
    unfold setResetCb; split <;> exact .same rfl rfl rfl
  | init baud =>
    injection h with h; subst h
    unfold Slave.init; simp only
    split
    · exact ⟨rfl, fun _ => Nat.le_refl _, fun _ => Nat.le_refl _⟩
    · exact .same rfl rfl rfl
  | setMode m => injection h with h; subst h; exact .same rfl rfl rfl
  | setBaud b => injection h with h; subst h; exact .same rfl rfl rfl
  | table o => injection h with h; subst h; exact .same rfl rfl rfl
  | allCb f => injection h with h; subst h; exact .same rfl rfl rfl
  | firstCb f => injection h with h; subst h; exact .same rfl rfl rfl
  | firstStatusCb f => injection h with h; subst h; exact .same rfl rfl rfl

/-- timing after a process request -/
theorem request_time {env : Env} {s s' : Slave} {now dlc id : Nat} {data : List Byte} (hi : ReqInv s)
    (h : step env s (.frame now 0 dlc id data) = some s') :
    s'.sync.stamp = now ∧ s'.sync.periode = env.t2ms (sub32 now s.sync.stamp) ∧ s'.sync.cycle = s.sync.cycle := by
  obtain ⟨s1, r, hp⟩ := frame_request h
  obtain ⟨c, e⟩ := r.sync
  have hi1 : ReqInv s1 := hi.congr (by rw [e]) (by rw [e]) (by rw [e])
  obtain ⟨l, h1, h2, h3, -⟩ := processRequest_spec hp
  have k := checkImage_keeps env (reqRx s1) now hi1.reqRx
  simp only at k
  obtain ⟨-, -, -, -, -, k1, k2, -⟩ := k
  have rq : (reqRx s1).sync.stamp = s.sync.stamp ∧ (reqRx s1).sync.cycle = s.sync.cycle := by
    rw [reqRx_eq]; simp [e]
  refine ⟨by rw [h3], ?_, ?_⟩
  · rw [h3]; show env.t2ms (sub32 now (checkImage env (reqRx s1) now).sync.stamp) = _; rw [k1, rq.1]
  · rw [h3]; show (checkImage env (reqRx s1) now).sync.cycle = _; rw [k2, rq.2]

theorem timeRel_run {env : Env} (xs : List In) : ∀ {s s' : Slave}, (∀ x ∈ xs, isReq x = false) →
    run env s xs = some s' → TimeRel env s s' := by
  induction xs with
  | nil => intro s s' _ h; injection h with h; subst h; exact .same rfl rfl rfl
  | cons x xs ih =>
    intro s s' hx h
    simp only [run, Option.bind_eq_some_iff] at h
    obtain ⟨s1, h1, h2⟩ := h
    have a := TimeRel.step (hx x (by simp)) h1
    have b := ih (fun y hy => hx y (by simp [hy])) h2
    exact ⟨b.stamp.trans a.stamp, fun h => b.cyc (a.cyc h), fun h => b.per (a.per h)⟩

/-! ## Callbacks -/

/-- `f` is registered neither as a process image callback nor as first-status callback -/
structure Avoid (f : Nat) (s : Slave) : Prop where
  all : s.sync.allCb ≠ some f
  valid : ∀ i, s.sync.validCb i ≠ some f
  invalid : ∀ i, s.sync.invalidCb i ≠ some f
  req : ∀ i, s.sync.reqCb i ≠ some f
  status : s.sys.firstCb ≠ some f

/-- `f` is registered neither as a process image callback nor as first-request callback -/
structure AvoidS (f : Nat) (s : Slave) : Prop where
  all : s.sync.allCb ≠ some f
  valid : ∀ i, s.sync.validCb i ≠ some f
  invalid : ∀ i, s.sync.invalidCb i ≠ some f
  req : ∀ i, s.sync.reqCb i ≠ some f
  request : s.sync.firstCb ≠ some f

def nextFirst (o : Option Nat) : In → Option Nat
  | .firstCb f => f
  | _ => o
def nextAll (o : Option Nat) : In → Option Nat
  | .allCb f => f
  | _ => o

/-- callback variables after an input that is no process request -/
structure CbRel (env : Env) (s s' : Slave) (x : In) : Prop where
  first : s'.sync.first = s.sync.first
  firstCb : s'.sync.firstCb = nextFirst s.sync.firstCb x
  all : s'.sync.allCb = nextAll s.sync.allCb x
  valid : ∀ i, s'.sync.validCb i = s.sync.validCb i ∨ s'.sync.validCb i = none ∨ ∃ t n f, x = .validCb t n f ∧ s'.sync.validCb i = f
  invalid : ∀ i, s'.sync.invalidCb i = s.sync.invalidCb i ∨ s'.sync.invalidCb i = none ∨ ∃ t n f, x = .invalidCb t n f ∧ s'.sync.invalidCb i = f
  req : ∀ i, s'.sync.reqCb i = s.sync.reqCb i ∨ s'.sync.reqCb i = none ∨ ∃ t n f, x = .reqCb t n f ∧ s'.sync.reqCb i = f
  status : s'.sys.firstCb = s.sys.firstCb ∨ s'.sys.firstCb = none ∨ x = .firstStatusCb s'.sys.firstCb
  calls : appCalls s'.node.log = appCalls s.node.log ∨
    (s.sys.first = false ∧ s'.sys.first = true ∧ appCalls s'.node.log = s.sys.firstCb.toList ++ appCalls s.node.log)
  keep : s.sys.first = true → (∀ b, x ≠ .init b) → s'.sys.first = true

theorem CbRel.same {env : Env} {s s' : Slave} {x : In} (h1 : s'.sync = s.sync) (h2 : s'.sys = s.sys)
    (h3 : appCalls s'.node.log = appCalls s.node.log) (h4 : ∀ f, x ≠ .firstCb f) (h5 : ∀ f, x ≠ .allCb f) :
    CbRel env s s' x := by
  refine ⟨by rw [h1], ?_, ?_, ?_, ?_, ?_, .inl (by rw [h2]), .inl h3, ?_⟩
  · rw [h1]; unfold nextFirst; split
    · exact absurd rfl (h4 _)
    · rfl
  · rw [h1]; unfold nextAll; split
    · exact absurd rfl (h5 _)
    · rfl
  · intro i; rw [h1]; exact .inl rfl
  · intro i; rw [h1]; exact .inl rfl
  · intro i; rw [h1]; exact .inl rfl
  · intro h _; rw [h2]; exact h

theorem CbRel.step {env : Env} {s s' : Slave} {x : In} (hx : isReq x = false)
    (h : Slave.step env s x = some s') : CbRel env s s' x := by
  cases x with
  | frame now obj dlc id data =>
    have ho : obj ≠ 0 := by simpa [isReq] using hx
    rcases frame_other ho h with r | ⟨s1, s2, e, r, hm, rfl⟩
    · obtain ⟨c, e⟩ := r.sync
      refine ⟨by rw [e], by rw [e]; rfl, by rw [e]; rfl, ?_, ?_, ?_, .inl (by rw [r.sys]), .inl (by rw [r.log]), ?_⟩
      · intro i; rw [e]; exact .inl rfl
      · intro i; rw [e]; exact .inl rfl
      · intro i; rw [e]; exact .inl rfl
      · intro h _; rw [r.sys]; exact h
    · obtain ⟨c, e⟩ := r.sync
      obtain ⟨c1, c2, c3, c4, c5, c6, c7, c8, c9, c10⟩ := (sysMsg_eff hm).calls
      rw [e] at c5 c6 c7 c8 c9 c10
      rw [r.sys, r.log] at c1
      rw [r.sys] at c2 c3
      refine ⟨c5, c6, c7, ?_, ?_, ?_, .inl c2, ?_, fun h _ => c3 h⟩
      · intro i; exact .inl (by rw [← c8])
      · intro i; exact .inl (by rw [← c9])
      · intro i; exact .inl (by rw [← c10])
      · show appCalls (report env s2.node _).log = _ ∨ _ ∧ _ ∧ appCalls (report env s2.node _).log = _
        rw [report_log, c1]
        split
        · next hc => exact .inr ⟨hc.2.2, hc.2.1, rfl⟩
        · exact .inl rfl
  | trigger now =>
    injection h with h; subst h
    obtain ⟨p, hp⟩ := trigger_eq env s now
    rw [hp]
    exact ⟨rfl, rfl, rfl, fun _ => .inl rfl, fun _ => .inl rfl, fun _ => .inl rfl, .inl rfl, .inl rfl, fun h _ => h⟩
  | getPeriode =>
    injection h with h; subst h
    unfold getPeriode; simp only
    split <;> exact ⟨rfl, rfl, rfl, fun _ => .inl rfl, fun _ => .inl rfl, fun _ => .inl rfl, .inl rfl, .inl rfl, fun h _ => h⟩
  | setCycle t =>
    injection h with h; subst h
    rw [setCycle_eq]
    exact ⟨rfl, rfl, rfl, fun _ => .inl rfl, fun _ => .inl rfl, fun _ => .inl rfl, .inl rfl, .inl rfl, fun h _ => h⟩
  | validCb typ nr f =>
    injection h with h; subst h
    rcases setModCb_keeps env s typ nr (fun v tp => { v with validCb := upd v.validCb tp f }) with e | ⟨tp, e⟩ <;> rw [e]
    · exact .same rfl rfl rfl (by simp) (by simp)
    · refine ⟨rfl, rfl, rfl, ?_, fun _ => .inl rfl, fun _ => .inl rfl, .inl rfl, .inl rfl, fun h _ => h⟩
      intro i
      by_cases hi : i = tp
      · subst hi; exact .inr (.inr ⟨typ, nr, f, rfl, by simp⟩)
      · exact .inl (upd_other _ _ hi)
  | invalidCb typ nr f =>
    injection h with h; subst h
    rcases setModCb_keeps env s typ nr (fun v tp => { v with invalidCb := upd v.invalidCb tp f }) with e | ⟨tp, e⟩ <;> rw [e]
    · exact .same rfl rfl rfl (by simp) (by simp)
    · refine ⟨rfl, rfl, rfl, fun _ => .inl rfl, ?_, fun _ => .inl rfl, .inl rfl, .inl rfl, fun h _ => h⟩
      intro i
      by_cases hi : i = tp
      · subst hi; exact .inr (.inr ⟨typ, nr, f, rfl, by simp⟩)
      · exact .inl (upd_other _ _ hi)
  | reqCb typ nr f =>
    injection h with h; subst h
    rcases setModCb_keeps env s typ nr (fun v tp => { v with reqCb := upd v.reqCb tp f }) with e | ⟨tp, e⟩ <;> rw [e]
    · exact .same rfl rfl rfl (by simp) (by simp)
    · refine ⟨rfl, rfl, rfl, fun _ => .inl rfl, fun _ => .inl rfl, ?_, .inl rfl, .inl rfl, fun h _ => h⟩
      intro i
      by_cases hi : i = tp
      · subst hi; exact .inr (.inr ⟨typ, nr, f, rfl, by simp⟩)
      · exact .inl (upd_other _ _ hi)
  | timeCb f =>
    injection h with h; subst h
    unfold setTimeCb; split <;>
    exact ⟨rfl, rfl, rfl, fun _ => .inl rfl, fun _ => .inl rfl, fun _ => .inl rfl, .inl rfl, .inl rfl, fun h _ => h⟩
  | resetCb f =>
    injection h with h; subst h
    unfold setResetCb; split <;>
    exact ⟨rfl, rfl, rfl, fun _ => .inl rfl, fun _ => .inl rfl, fun _ => .inl rfl, .inl rfl, .inl rfl, fun h _ => h⟩
  | init baud =>
    injection h with h; subst h
    have hc := nodeInit_calls env s.node
    unfold SameCalls at hc
    unfold Slave.init; simp only
    split
    · refine ⟨rfl, rfl, rfl, ?_, ?_, ?_, .inr (.inl rfl), .inl hc, fun _ h => absurd rfl (h baud)⟩
      · intro i
        by_cases hi : i < env.maxMod
        · exact .inr (.inl (if_pos hi))
        · exact .inl (if_neg hi)
      · intro i
        by_cases hi : i < env.maxMod
        · exact .inr (.inl (if_pos hi))
        · exact .inl (if_neg hi)
      · intro i
        by_cases hi : i < env.maxMod
        · exact .inr (.inl (if_pos hi))
        · exact .inl (if_neg hi)
    · exact .same rfl rfl hc (by simp) (by simp)
  | setMode m => injection h with h; subst h; exact .same rfl rfl rfl (by simp) (by simp)
  | setBaud b => injection h with h; subst h; exact .same rfl rfl rfl (by simp) (by simp)
  | table o => injection h with h; subst h; exact .same rfl rfl (nodeStep_calls ..) (by simp) (by simp)
  | allCb f =>
    injection h with h; subst h
    exact ⟨rfl, rfl, rfl, fun _ => .inl rfl, fun _ => .inl rfl, fun _ => .inl rfl, .inl rfl, .inl rfl, fun h _ => h⟩
  | firstCb f =>
    injection h with h; subst h
    exact ⟨rfl, rfl, rfl, fun _ => .inl rfl, fun _ => .inl rfl, fun _ => .inl rfl, .inl rfl, .inl rfl, fun h _ => h⟩
  | firstStatusCb f =>
    injection h with h; subst h
    exact ⟨rfl, rfl, rfl, fun _ => .inl rfl, fun _ => .inl rfl, fun _ => .inl rfl, .inr (.inr rfl), .inl rfl, fun h _ => h⟩

/-- callback variables after a process request -/
structure ReqRel (s s' : Slave) : Prop where
  first : s'.sync.first = true
  firstCb : s'.sync.firstCb = s.sync.firstCb
  all : s'.sync.allCb = s.sync.allCb
  valid : s'.sync.validCb = s.sync.validCb
  invalid : s'.sync.invalidCb = s.sync.invalidCb
  req : s'.sync.reqCb = s.sync.reqCb
  sys : s'.sys = s.sys
  calls : ∃ l, (∀ f ∈ l, s.sync.allCb = some f ∨ ∃ i, s.sync.validCb i = some f ∨ s.sync.invalidCb i = some f ∨ s.sync.reqCb i = some f) ∧
    appCalls s'.node.log = l ++ (if s.sync.first then [] else s.sync.firstCb.toList) ++ appCalls s.node.log

theorem ReqRel.step {env : Env} {s s' : Slave} {now dlc id : Nat} {data : List Byte} (hi : ReqInv s)
    (h : Slave.step env s (.frame now 0 dlc id data) = some s') : ReqRel s s' := by
  obtain ⟨s1, r, hp⟩ := frame_request h
  obtain ⟨c, e⟩ := r.sync
  have hi1 : ReqInv s1 := hi.congr (by rw [e]) (by rw [e]) (by rw [e])
  obtain ⟨⟨img, c1, c2⟩, c3, c4, c5, c6, c7, c8, c9⟩ := request_calls hi1 hp
  rw [e] at c1 c2 c4 c5 c6 c7 c8
  rw [r.sys] at c9
  rw [r.log] at c1
  refine ⟨c3, c4, c5, c6, c7, c8, c9, img ++ ((List.range s1.node.nrMod).filterMap s.sync.reqCb).reverse, ?_, ?_⟩
  · intro f hf
    rcases List.mem_append.1 hf with hf | hf
    · rcases c2 f hf with h | ⟨i, h⟩
      · exact .inl h
      · exact .inr ⟨i, h.elim .inl fun h => .inr (.inl h)⟩
    · simp only [List.mem_reverse, List.mem_filterMap] at hf
      obtain ⟨i, -, hi⟩ := hf
      exact .inr ⟨i, .inr (.inr hi)⟩
  · rw [c1, List.reverse_append]
    have : (if s.sync.first = true then [] else s.sync.firstCb.toList).reverse = (if s.sync.first = true then [] else s.sync.firstCb.toList) := by
      split
      · rfl
      · cases s.sync.firstCb <;> rfl
    rw [this]
    simp only [List.append_assoc]

end Slave
end LiCan
