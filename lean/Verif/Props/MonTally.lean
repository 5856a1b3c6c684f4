import Verif.Props.MonLink
/-! # Periods with doubled or overlong process requests give no verdict (C81) -/
namespace LiCan
open Node Spec Slave
namespace Spec

/-- The requests since the last evaluation: how many the main controller and the monitor received, and the
length of the latest of each. -/
structure Tally where
  nA : Nat := 0
  lA : Nat := 0
  nB : Nat := 0
  lB : Nat := 0

/-- One input.  The first request after both controllers had one begins a new period. -/
def Tally.count (t : Tally) (x : Mon.MIn) : Tally :=
  let t := if (reqMain x || reqMon x) && (0 < t.nA && 0 < t.nB) then {} else t
  match x with
  | .main _ 0 l _ _ => { t with nA := t.nA + 1, lA := l }
  | .mon _ 1 l _ _ => { t with nB := t.nB + 1, lB := l }
  | _ => t

/-- The period ending at the next request can be judged: one request on each controller, none longer than one
byte.  (Requests are counted modulo 65536.) -/
def Tally.judged (t : Tally) : Prop :=
  t.nA % 65536 = 1 ∧ t.nB % 65536 = 1 ∧ t.lA ≤ 1 ∧ t.lB ≤ 1

instance (t : Tally) : Decidable t.judged := by unfold Tally.judged; infer_instance

end Spec
namespace Mon

theorem count_other (t : Tally) {x : MIn} (h1 : reqMain x = false) (h2 : reqMon x = false) : t.count x = t := by
  unfold Tally.count
  rw [h1, h2]
  cases x with
  | main now obj dlc id data =>
    cases obj with
    | zero => simp [reqMain] at h1
    | succ n => rfl
  | mon now obj dlc id data =>
    rcases obj with - | - | n
    · rfl
    · simp [reqMon] at h2
    · rfl
  | _ => rfl

/-- the requests as the slave counts them -/
structure Told (t : Tally) (d : Mon) : Prop where
  fA : d.s.sync.prFlag = if 0 < t.nA then 0xFFFF else 0
  cA : d.s.sync.prCnt = t.nA % 65536
  lA : 0 < t.nA → d.s.sync.prDlc = t.lA
  fB : d.m.prFlag = if 0 < t.nB then 0xFFFF else 0
  cB : d.m.prCnt = t.nB % 65536
  lB : 0 < t.nB → d.m.prDlc = t.lB

theorem Told.of {t : Tally} {d d' : Mon} (h : Told t d) (e1 : prA d'.s.sync = prA d.s.sync) (e2 : prB d'.m = prB d.m) : Told t d' := by
  unfold prA at e1
  unfold prB at e2
  simp only [Prod.mk.injEq] at e1 e2
  obtain ⟨a1, a2, a3⟩ := e1
  obtain ⟨b1, b2, b3⟩ := e2
  exact ⟨a1.trans h.fA, a2.trans h.cA, fun p => a3.trans (h.lA p), b1.trans h.fB, b2.trans h.cB, fun p => b3.trans (h.lB p)⟩

/-- an input that is no request leaves the verdicts and the requests alone -/
theorem step_still {me : MonEnv} {d d' : Mon} {x : MIn} (r1 : reqMain x = false) (r2 : reqMon x = false)
    (h : Mon.step me d x = some d') : Still d d' := by
  have still : ∀ {y : Mon}, Still d y → some y = some d' → Still d d' := by
    intro y hr hh
    cases hh
    exact hr
  have lft : ∀ {y : In}, (match y with
    | .trigger _ | .setCycle _ | .allCb _ | .validCb .. | .invalidCb .. | .reqCb .. => True
    | _ => False) → lift me d y = some d' → Still d d' := by
    intro y hy h
    obtain ⟨-, h2, h3, h4⟩ := lift_calm hy h
    exact ⟨h3, h4, by rw [h2]⟩
  cases x <;> simp only [Mon.step] at h
  case main now obj dlc id data =>
    have h0 : ¬ obj = 0 := by intro e; rw [e] at r1; simp [reqMain] at r1
    rw [handlerMain_eq] at h
    dsimp only at h
    rw [if_neg h0] at h
    obtain ⟨-, -, -, -, -, c, hc, -⟩ := dataPart_keeps me.toEnv d.s obj dlc id data
    have h1 : Still d { d with s := dataPart me.toEnv d.s obj dlc id data } :=
      ⟨by dsimp only; rw [hc], by dsimp only [prA]; rw [hc], rfl⟩
    generalize ({ d with s := dataPart me.toEnv d.s obj dlc id data } : Mon) = d1 at *
    split at h
    · obtain ⟨x, hx, hy⟩ := Option.bind_eq_some_iff.1 h
      cases hx
      obtain ⟨⟨y, e⟩, hz, rfl⟩ := Option.map_eq_some_iff.1 hy
      obtain ⟨⟨c, hc⟩, -, hp⟩ := sysMsg_calm hz
      have st : Still d1 y := ⟨by rw [hc], by dsimp only [prA]; rw [hc], hp⟩
      have st2 : Still y (reportD me y e) := ⟨rfl, rfl, rfl⟩
      exact h1.trans (st.trans st2)
    · cases h; exact h1
  case mon now obj dlc id data =>
    have h0 : ¬ obj = 1 := by intro e; rw [e] at r2; simp [reqMon] at r2
    cases h
    rw [handlerMon_eq]
    dsimp only
    rw [if_neg h0]
    exact dataKept_still ((monRxPart_kept me d obj dlc id data).trans (monTxPart_kept me (monRxPart me d obj dlc id data) obj dlc id data))
  case write p v => exact still (y := { d with s := { d.s with node := { d.s.node with mem := upd d.s.node.mem p v } } }) ⟨rfl, rfl, rfl⟩ h
  case add => exact still (addModule_calm ..).still h
  case silentAwakeBy =>
    split at h
    · exact still (setSilentAwake_calm ..).still h
    · exact still (.refl _) h
  case setActive =>
    split at h
    · next tp _ => exact still (y := rowOn d tp) ⟨rfl, rfl, rfl⟩ h
    · exact still (.refl _) h
  case setCritical =>
    split at h
    · next tp _ => exact still (y := rowOff me d tp) ⟨rfl, rfl, rfl⟩ h
    · exact still (.refl _) h
  case changeNr => exact still (changeNr_calm ..).still h
  case setMode md => exact still (y := (setMode me d md).1) ⟨rfl, rfl, rfl⟩ h
  case setBaud bd =>
    have := setBaud_same d bd
    unfold SameRate at this
    exact still (y := (setBaud d bd).1) ⟨rfl, rfl, by rw [this]; rfl⟩ h
  all_goals exact lft trivial h

/-- the tally after the evaluation -/
def evalTally (t : Tally) : Tally := if 0 < t.nA && 0 < t.nB then {} else t

theorem checkImage_told {me : MonEnv} {t : Tally} {d : Mon} (h : Told t d) (now : Nat) :
    Told (evalTally t) (checkImage me d now) := by
  unfold evalTally
  by_cases hA : 0 < t.nA
  · by_cases hB : 0 < t.nB
    · have a : d.s.sync.prFlag = 0xFFFF := by rw [h.fA, if_pos hA]
      have b : d.m.prFlag = 0xFFFF := by rw [h.fB, if_pos hB]
      obtain ⟨k1, k2, k3, k4, -⟩ := checkImage_clears me d now a b
      rw [if_pos (by simp [hA, hB])]
      exact ⟨k1, k3, fun p => absurd p (by decide), k2, k4, fun p => absurd p (by decide)⟩
    · rw [checkImage_idle me d now (.inr (by rw [h.fB, if_neg hB])), if_neg (by simp [hB])]
      exact h
  · rw [checkImage_idle me d now (.inl (by rw [h.fA, if_neg hA])), if_neg (by simp [hA])]
    exact h

/-- no verdict and no callback if the period cannot be judged -/
theorem checkImage_unjudged {me : MonEnv} {t : Tally} {d : Mon} (h : Told t d) (hj : ¬ t.judged) (now : Nat) :
    (checkImage me d now).s.sync.valid = d.s.sync.valid ∧ (checkImage me d now).s.node = d.s.node := by
  unfold checkImage
  split
  · next hf =>
    have hA : 0 < t.nA := by
      apply Decidable.byContradiction
      intro e
      have := hf.1
      rw [h.fA, if_neg e] at this
      exact absurd this (by decide)
    have hB : 0 < t.nB := by
      apply Decidable.byContradiction
      intro e
      have := hf.2
      rw [h.fB, if_neg e] at this
      exact absurd this (by decide)
    split
    · exact ⟨rfl, rfl⟩
    · next h1 =>
      split
      · exact ⟨rfl, rfl⟩
      · next h2 =>
        split
        · exact ⟨rfl, rfl⟩
        · next h3 =>
          split
          · exact ⟨rfl, rfl⟩
          · next h4 =>
            exfalso
            apply hj
            rw [Decidable.not_not, h.cA] at h3
            rw [Decidable.not_not, h.cB] at h4
            rw [h.lA hA] at h1
            rw [h.lB hB] at h2
            exact ⟨h3, h4, by omega, by omega⟩
  · exact ⟨rfl, rfl⟩

theorem mainReq_told {me : MonEnv} {t : Tally} {d d' : Mon} (h : Told t d) {now dlc id : Nat} {data : List Byte}
    (hs : handlerMain me d now 0 dlc id data = some d') :
    Told (t.count (.main now 0 dlc id data)) d' ∧
    (¬ t.judged → d'.s.sync.valid = d.s.sync.valid ∧
      ∃ l, OnlyFrames l ∧ d'.s.node.log = l ++ (reqEvs d.s).reverse ++ d.s.node.log) := by
  rw [handlerMain_eq] at hs
  dsimp only at hs
  obtain ⟨hl, -, -, hlog, -, c, hc, -⟩ := dataPart_keeps me.toEnv d.s 0 dlc id data
  have hsync := hc
  have t1 : Told t { d with s := dataPart me.toEnv d.s 0 dlc id data } :=
    h.of (by dsimp only [prA]; rw [hc]) rfl
  have ev : reqEvs (dataPart me.toEnv d.s 0 dlc id data) = reqEvs d.s := by
    unfold reqEvs
    rw [hc, hl.nrMod]
  generalize dataPart me.toEnv d.s 0 dlc id data = s1 at *
  rw [if_neg (by simp), if_pos rfl] at hs
  obtain ⟨-, -, -, ks, km, l, kl, kf⟩ := request_spec hs
  dsimp only at ks km kl
  have t2 : Told t { s := reqRx s1, m := d.m } := t1.of (by rw [reqRx_eq]; rfl) rfl
  have t3 := checkImage_told (me := me) t2 now
  refine ⟨?_, ?_⟩
  · have e : t.count (.main now 0 dlc id data) = { evalTally t with nA := (evalTally t).nA + 1, lA := dlc } := by
      unfold Tally.count evalTally
      simp [reqMain]
    rw [e]
    refine ⟨?_, ?_, ?_, ?_, ?_, ?_⟩
    · rw [ks, if_pos (Nat.succ_pos _)]
    · rw [ks]
      dsimp only
      rw [t3.cA]
      unfold u16
      omega
    · intro _; rw [ks]
    · rw [km]; exact t3.fB
    · rw [km]; exact t3.cB
    · rw [km]; exact t3.lB
  · intro hj
    obtain ⟨v, n⟩ := checkImage_unjudged (me := me) t2 hj now
    refine ⟨?_, l, kf, ?_⟩
    · rw [ks]
      dsimp only
      rw [v, reqRx_eq, hsync]
    · rw [kl, n, reqRx_eq]
      dsimp only
      rw [ev, hlog, List.append_assoc]

theorem monReq_told {me : MonEnv} {t : Tally} {d : Mon} (h : Told t d) {now dlc id : Nat} {data : List Byte} :
    Told (t.count (.mon now 1 dlc id data)) (handlerMon me d now 1 dlc id data) ∧
    (¬ t.judged → (handlerMon me d now 1 dlc id data).s.sync.valid = d.s.sync.valid ∧
      (handlerMon me d now 1 dlc id data).s.node.log = d.s.node.log) := by
  rw [handlerMon_eq]
  have k := (monRxPart_kept me d 1 dlc id data).trans (monTxPart_kept me (monRxPart me d 1 dlc id data) 1 dlc id data)
  have st := dataKept_still k
  have ks := k.s
  generalize monTxPart me (monRxPart me d 1 dlc id data) 1 dlc id data = d1 at *
  dsimp only
  rw [if_pos rfl]
  have t1 : Told t d1 := h.of st.main st.mon
  have t3 := checkImage_told (me := me) t1 now
  refine ⟨?_, ?_⟩
  · have e : t.count (.mon now 1 dlc id data) = { evalTally t with nB := (evalTally t).nB + 1, lB := dlc } := by
      unfold Tally.count evalTally
      simp [reqMain, reqMon]
    rw [e]
    unfold rxProcessMon
    refine ⟨t3.fA, t3.cA, t3.lA, ?_, ?_, ?_⟩
    · dsimp only; rw [if_pos (Nat.succ_pos _)]
    · dsimp only
      rw [t3.cB]
      unfold u16
      omega
    · intro _; rfl
  · intro hj
    obtain ⟨v, n⟩ := checkImage_unjudged (me := me) t1 hj now
    unfold rxProcessMon
    dsimp only
    rw [v, n, ks]
    exact ⟨rfl, rfl⟩

theorem step_told {me : MonEnv} {t : Tally} {d d' : Mon} {x : MIn} (h : Told t d) (hs : Mon.step me d x = some d') :
    Told (t.count x) d' := by
  by_cases r1 : reqMain x = true
  · cases x <;> simp only [reqMain, Bool.false_eq_true, beq_iff_eq] at r1
    subst r1
    exact (mainReq_told h hs).1
  · by_cases r2 : reqMon x = true
    · cases x <;> simp only [reqMon, Bool.false_eq_true, beq_iff_eq] at r2
      subst r2
      cases hs
      exact (monReq_told h).1
    · rw [count_other t (by simpa using r1) (by simpa using r2)]
      have st := step_still (by simpa using r1) (by simpa using r2) hs
      exact h.of st.main st.mon

theorem run_told {me : MonEnv} (xs : List MIn) : ∀ {t : Tally} {d d' : Mon}, Told t d → Mon.run me d xs = some d' →
    Told (xs.foldl Tally.count t) d' := by
  induction xs with
  | nil => intro t d d' h hr; cases hr; exact h
  | cons x xs ih =>
    intro t d d' h hr
    unfold Mon.run at hr
    cases hs : Mon.step me d x with
    | none => rw [hs] at hr; simp at hr
    | some d1 => rw [hs] at hr; exact ih (step_told h hs) hr

theorem init_told {me : MonEnv} (he : MonEnvOk me) {mem : Nat → List Byte} {baud : Nat}
    (h : (Mon.init me (Mon.boot mem) baud).2 = E.ok) : Told {} (Mon.init me (Mon.boot mem) baud).1 := by
  have i := MInv.init he h
  exact ⟨i.flag, i.pcnt rfl, fun p => absurd p (by decide), i.mflag, i.mpcnt rfl, fun p => absurd p (by decide)⟩

theorem reqEvs_callsOf (s : Slave) : reqEvs s = callsOf (if s.sync.first then [] else [s.sync.firstCb]) ++
    callsOf ((List.range s.node.nrMod).map s.sync.reqCb) := by
  unfold reqEvs
  rw [flatMap_calls]
  generalize s.sync.first = b
  generalize s.sync.firstCb = f
  congr 1
  cases b
  · cases f <;> rfl
  · rfl

/-- C81.  After any history `xs` of a slave with monitor controller (any frames, any API calls, registrations,
number changes): unless, since the last evaluation, each controller received one process request (modulo
65536) of at most one byte, the next request, on either controller, judges no module: every module keeps its
verdict, and the application is told nothing about validity -- a request on the main controller calls the
first-request callback (if it is the first) and the request callbacks and transmits frames, a request on the
monitor does nothing visible. -/
theorem C81_no_verdict_on_doubled_or_long_request (me : MonEnv) (he : MonEnvOk me) (mem : Nat → List Byte) (baud : Nat)
    (hi : (Mon.init me (Mon.boot mem) baud).2 = E.ok) (xs : List MIn) (d d' : Mon)
    (hr : run me (Mon.init me (Mon.boot mem) baud).1 xs = some d) (hj : ¬ (xs.foldl Tally.count {}).judged) :
    (∀ now dlc id data, step me d (.main now 0 dlc id data) = some d' → d'.s.sync.valid = d.s.sync.valid ∧
      ∃ l, (∀ e ∈ l, ∃ f ok, e = .frame f ok) ∧
        d'.s.node.log = l ++ (callsOf (if d.s.sync.first then [] else [d.s.sync.firstCb]) ++
          callsOf ((List.range d.s.node.nrMod).map d.s.sync.reqCb)).reverse ++ d.s.node.log) ∧
    (∀ now dlc id data, step me d (.mon now 1 dlc id data) = some d' → d'.s.sync.valid = d.s.sync.valid ∧
      d'.s.node.log = d.s.node.log) := by
  have t := run_told xs (init_told he hi) hr
  refine ⟨?_, ?_⟩
  · intro now dlc id data hs
    obtain ⟨v, l, hf, hl⟩ := (mainReq_told t hs).2 hj
    refine ⟨v, l, hf, ?_⟩
    rw [hl, reqEvs_callsOf]
  · intro now dlc id data hs
    cases hs
    exact (monReq_told t).2 hj

/-- the frames of a valid period of the slave with two modules, and two requests on the monitor / a long request -/
def exTwice : List MIn := exMAdds ++ [rqA 1, rqB 2, rqA 3, rqB 4, rqB 5] ++ exAll
def exLong : List MIn := exMAdds ++ [rqA 1, rqB 2, rqA 3, .mon 4 1 2 1 [0, 0]] ++ exAll
def exOnce : List MIn := exMAdds ++ [rqA 1, rqB 2, rqA 3, rqB 4] ++ exAll

/-- the hypotheses are met, and without the doubled or long request the modules become valid -/
example : (Mon.init exMe (Mon.boot exMem) 250).2 = E.ok := by decide +kernel
example : (run exMe exMInit exTwice).isSome = true ∧ ¬ (exTwice.foldl Tally.count {}).judged := by decide +kernel
example : (run exMe exMInit exLong).isSome = true ∧ ¬ (exLong.foldl Tally.count {}).judged := by decide +kernel
example : ((run exMe exMInit (exTwice ++ [rqA 9])).map fun d => (List.range 2).map d.s.sync.valid) = some [false, false] := by
  decide +kernel
example : ((run exMe exMInit (exLong ++ [rqA 9])).map fun d => (List.range 2).map d.s.sync.valid) = some [false, false] := by
  decide +kernel
example : (exOnce.foldl Tally.count {}).judged ∧
    ((run exMe exMInit (exOnce ++ [rqA 9])).map fun d => (List.range 2).map d.s.sync.valid) = some [true, true] := by
  decide +kernel

end Mon
end LiCan
