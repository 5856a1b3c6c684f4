import Verif.Lemmas.SlaveSys
/-! # The process image: counters, request flag, histories -/
namespace LiCan
open Node
namespace Slave

/-- the data part of the receive handler, io_can_sync_handler.c:130-170 -/
def dataPart (env : Env) (s : Slave) (obj dlc id : Nat) (data : List Byte) : Slave :=
  if Node.bit obj &&& s.node.hw.isrRx ≠ 0 then
    match s.node.slotRow obj with
    | some tp => (rxData env s tp id dlc data).1
    | none => s
  else s

/-- the process request part -/
def reqPart (env : Env) (s : Slave) (now obj dlc : Nat) : Option Slave :=
  if obj = 0 then processRequest env s now dlc else some s

/-- the system message part -/
def sysPart (env : Env) (s : Slave) (dlc id : Nat) (data : List Byte) : Option Slave :=
  (sysMsg env s (sysNrOfId id) dlc data).map fun r => { r.1 with node := r.1.node.report env r.2 }

theorem handlerRx_eq (env : Env) (s : Slave) (now obj dlc id : Nat) (data : List Byte) :
    handlerRx env s now obj dlc id data =
      if obj = 2 ∨ (obj = 3 ∧ env.sysObj2 = true) then
        (reqPart env (dataPart env s obj dlc id data) now obj dlc).bind fun s => sysPart env s dlc id data
      else reqPart env (dataPart env s obj dlc id data) now obj dlc := rfl

/-- does the frame count for object `j` of row `i`? -/
def counts (env : Env) (n : Node) (i j obj dlc id : Nat) : Bool :=
  (Node.bit obj &&& n.hw.isrRx ≠ 0) && (n.slotRow obj == some i) && (syncObjOfId id == j) &&
  (!env.chk || (syncNrOfId id == (n.rows i).nr && dlc == (n.rows i).rxDlcSync j))

theorem dataPart_keeps (env : Env) (s : Slave) (obj dlc id : Nat) (data : List Byte) :
    Light s.node (dataPart env s obj dlc id data).node ∧
    (dataPart env s obj dlc id data).link = s.link ∧ (dataPart env s obj dlc id data).sys = s.sys ∧
    (dataPart env s obj dlc id data).node.log = s.node.log ∧
    (dataPart env s obj dlc id data).node.errq = s.node.errq ∧
    (∃ c, (dataPart env s obj dlc id data).sync = { s.sync with cnt := c } ∧
      ∀ i j, c i j = if counts env s.node i j obj dlc id then u16 (s.sync.cnt i j + 1) else s.sync.cnt i j) := by
  unfold dataPart counts
  split
  · next hb =>
    split
    · next tp htp =>
      unfold rxData
      simp only
      split
      · next h1 =>
        refine ⟨.refl _, rfl, rfl, rfl, rfl, _, rfl, ?_⟩
        intro i j
        rw [if_neg]
        simp only [hb, htp, h1.1, Bool.not_true, Bool.false_or, Bool.and_eq_true, beq_iff_eq]
        rintro ⟨⟨⟨_, he⟩, _⟩, hn, _⟩
        injection he with he
        subst he
        exact h1.2 hn
      · split
        · next _ h1 =>
          refine ⟨.refl _, rfl, rfl, rfl, rfl, _, rfl, ?_⟩
          intro i j
          rw [if_neg]
          simp only [hb, htp, h1.1, Bool.not_true, Bool.false_or, Bool.and_eq_true, beq_iff_eq]
          rintro ⟨⟨⟨_, he⟩, hj⟩, hn, hd⟩
          injection he with he
          subst he; subst hj
          exact h1.2 hd
        · next h1 h2 =>
          have hcr : (callRx env s.node ((s.node.rows tp).rxMainSync (syncObjOfId id)) data
              ((s.node.rows tp).rx (syncObjOfId id)) dlc).1.log = s.node.log ∧
              (callRx env s.node ((s.node.rows tp).rxMainSync (syncObjOfId id)) data
              ((s.node.rows tp).rx (syncObjOfId id)) dlc).1.errq = s.node.errq := by
            unfold callRx; split <;> exact ⟨rfl, rfl⟩
          refine ⟨.callRx .., rfl, rfl, hcr.1, hcr.2, _, rfl, ?_⟩
          intro i j
          have e1 : (!env.chk || (syncNrOfId id == (s.node.rows tp).nr && dlc == (s.node.rows tp).rxDlcSync (syncObjOfId id))) = true := by
            cases hc : env.chk with
            | false => rfl
            | true => rw [hc] at h1 h2; simp at h1 h2; simp [h1, h2]
          by_cases hi : i = tp
          · subst hi
            by_cases hj : j = syncObjOfId id
            · subst hj; simp only [upd_same]; rw [if_pos]; simp [htp, e1]; exact hb
            · simp only [upd_same]; rw [upd_other _ _ hj, if_neg]; simp [hb, htp, Ne.symm hj]
          · rw [upd_other _ _ hi, if_neg]; simp [htp, Ne.symm hi]
    · next htp =>
      refine ⟨.refl _, rfl, rfl, rfl, rfl, _, rfl, ?_⟩
      intro i j; simp [htp]
  · next hb =>
    refine ⟨.refl _, rfl, rfl, rfl, rfl, _, rfl, ?_⟩
    intro i j; rw [if_neg]; simp only [ne_eq, hb, decide_false, Bool.false_and, Bool.false_eq_true, not_false_eq_true]

/-- only frames in a list of effects -/
def OnlyFrames (l : List Ev) : Prop := ∀ e ∈ l, ∃ f ok, e = Ev.frame f ok

theorem onlyFrames_one (f : Frame) (ok : Bool) : OnlyFrames [Ev.frame f ok] := by
  intro e he
  simp only [List.mem_singleton] at he
  exact ⟨f, ok, he⟩

theorem sendSys_log (env : Env) (n : Node) (nr : Nat) (d : List Byte) :
    ∃ l, (n.sendSys env nr d).1.log = l ++ n.log ∧ OnlyFrames l := by
  unfold Node.sendSys
  split
  · split
    · exact ⟨[_], rfl, onlyFrames_one _ _⟩
    · exact ⟨[], rfl, by simp [OnlyFrames]⟩
  · exact ⟨[], rfl, by simp [OnlyFrames]⟩

theorem sendOneError_log (env : Env) (n : Node) :
    ∃ l, (sendOneError env n).1.log = l ++ n.log ∧ OnlyFrames l := by
  unfold sendOneError
  split
  · next q _ x _ =>
    split
    · exact sendSys_log env { n with errq := q } _ _
    · exact ⟨[], rfl, by simp [OnlyFrames]⟩
  · exact ⟨[], rfl, by simp [OnlyFrames]⟩

theorem report_log (env : Env) (n : Node) (e : Err) : (n.report env e).log = n.log := by
  unfold Node.report; split <;> rfl

theorem sendOne_frames (env : Env) (n : Node) (tp obj : Nat) (buf : List Byte) :
    ∃ l, (sendOne env n tp obj buf).1.log = l ++ n.log ∧ OnlyFrames l := by
  unfold sendOne
  simp only
  split
  · exact ⟨[], rfl, by simp [OnlyFrames]⟩
  · split
    · exact ⟨[_], by rw [report_log]; rfl, onlyFrames_one _ _⟩
    · exact ⟨[], by rw [report_log]; rfl, by simp [OnlyFrames]⟩

theorem sendProcess_log {env : Env} {n n' : Node} (h : n.sendProcessData env = some n') :
    ∃ l, n'.log = l ++ n.log ∧ OnlyFrames l := by
  refine sendRun_ind env (fun x => ∃ l, x.log = l ++ n.log ∧ OnlyFrames l) ?_ 32 _ ⟨[], rfl, by simp [OnlyFrames]⟩ n' h
  rintro x tp obj buf ⟨l, hl, hf⟩
  obtain ⟨l', h1, h2⟩ := sendOne_frames env x tp obj buf
  refine ⟨l' ++ l, by rw [h1, hl, List.append_assoc], ?_⟩
  intro e he
  rcases List.mem_append.1 he with he | he
  · exact h2 e he
  · exact hf e he

/-- what a process request does after evaluating the image -/
theorem processRequest_spec {env : Env} {s s' : Slave} {now dlc : Nat}
    (h : processRequest env s now dlc = some s') :
    let k := checkImage env (reqRx s) now
    Light k.node s'.node ∧ s'.link = k.link ∧ s'.sys = k.sys ∧
    s'.sync = { k.sync with periode := env.t2ms (sub32 now k.sync.stamp), stamp := now
                            prCnt := u16 (k.sync.prCnt + 1), prDlc := dlc, prFlag := 0xFFFF } ∧
    ∃ l, s'.node.log = l ++ k.node.log ∧ OnlyFrames l := by
  intro k
  unfold processRequest at h
  simp only at h
  have hk : checkImage env (reqRx s) now = k := rfl
  rw [hk] at h
  clear_value k
  split at h
  · cases h
  · next n hn =>
    have l1 := Light.sendProcess hn
    obtain ⟨l, hl, hf⟩ := sendProcess_log hn
    split at h
    · injection h with h; subst h
      obtain ⟨l', hl', hf'⟩ := sendOneError_log env n
      refine ⟨l1.trans (sendOneError_light env n), rfl, rfl, rfl, l' ++ l, ?_, ?_⟩
      · show (sendOneError env n).1.log = _
        rw [hl', hl, List.append_assoc]
      · intro e he
        rcases List.mem_append.1 he with he | he
        · exact hf' e he
        · exact hf e he
    · injection h with h; subst h
      exact ⟨l1, rfl, rfl, rfl, l, hl, hf⟩

/-- the request flag and counter: at most one request is pending -/
structure ReqInv (s : Slave) : Prop where
  err : s.sync.errPr = 0
  st : (s.sync.prFlag = 0 ∧ s.sync.prCnt = 0) ∨ (s.sync.prFlag = 0xFFFF ∧ s.sync.prCnt = 1)

theorem ReqInv.congr {s s' : Slave} (h : ReqInv s) (h1 : s'.sync.errPr = s.sync.errPr)
    (h2 : s'.sync.prFlag = s.sync.prFlag) (h3 : s'.sync.prCnt = s.sync.prCnt) : ReqInv s' :=
  ⟨h1.trans h.err, by rw [h2, h3]; exact h.st⟩

/-- `checkImage`: three cases -/
theorem checkImage_cases (env : Env) (s : Slave) (now : Nat) (h : ReqInv s) :
    (s.sync.prFlag = 0 ∧ checkImage env s now = s) ∨
    (s.sync.prFlag = 0xFFFF ∧ 1 < s.sync.prDlc ∧ checkImage env s now = clearImage env s) ∨
    (s.sync.prFlag = 0xFFFF ∧ s.sync.prDlc ≤ 1 ∧ s.sync.prCnt = 1) := by
  rcases h.st with ⟨h1, h2⟩ | ⟨h1, h2⟩
  · left; exact ⟨h1, by simp [checkImage, h1]⟩
  · by_cases hd : 1 < s.sync.prDlc
    · right; left; exact ⟨h1, hd, by simp [checkImage, h1, hd]⟩
    · right; right; exact ⟨h1, by omega, h2⟩

theorem ReqInv.reqRx {s : Slave} (h : ReqInv s) : ReqInv (reqRx s) := by
  rw [reqRx_eq]; exact ⟨h.err, h.st⟩

/-- after the evaluation: nothing pending; timing untouched -/
theorem checkImage_keeps (env : Env) (s : Slave) (now : Nat) (h : ReqInv s) :
    let k := checkImage env s now
    k.sync.prCnt = 0 ∧ k.sync.errPr = 0 ∧ Light s.node k.node ∧ k.link = s.link ∧ k.sys = s.sys ∧
    k.sync.stamp = s.sync.stamp ∧ k.sync.cycle = s.sync.cycle ∧ k.sync.first = s.sync.first ∧
    k.sync.firstCb = s.sync.firstCb ∧ k.sync.reqCb = s.sync.reqCb ∧ k.sync.allCb = s.sync.allCb ∧
    k.sync.validCb = s.sync.validCb ∧ k.sync.invalidCb = s.sync.invalidCb ∧
    (s.sync.prFlag = 0xFFFF → k.sync.cnt = cleared env s) ∧
    (s.sync.prFlag = 0 → k.sync.cnt = s.sync.cnt) ∧ k.sync.periode = s.sync.periode := by
  intro k
  have hk : checkImage env s now = k := rfl
  rcases checkImage_cases env s now h with ⟨h1, e⟩ | ⟨h1, h2, e⟩ | ⟨h1, h2, h3⟩
  · rw [hk] at e
    rw [e]
    refine ⟨?_, h.err, .refl _, rfl, rfl, rfl, rfl, rfl, rfl, rfl, rfl, rfl, rfl, ?_, fun _ => rfl, rfl⟩
    · rcases h.st with h' | h'
      · exact h'.2
      · rw [h1] at h'; exact absurd h'.1 (by decide)
    · intro h'; rw [h1] at h'; exact absurd h' (by decide)
  · rw [hk] at e
    rw [e]
    refine ⟨rfl, h.err, .refl _, rfl, rfl, rfl, rfl, rfl, rfl, rfl, rfl, rfl, rfl, fun _ => rfl, ?_, rfl⟩
    intro h'; rw [h1] at h'; exact absurd h' (by decide)
  · obtain ⟨v, mt, er, e, -⟩ := checkImage_eval env s now h1 h2 h3
    rw [hk] at e
    rw [e]
    refine ⟨rfl, h.err, ⟨rfl, rfl, rfl, rfl, rfl, rfl, rfl, rfl⟩, rfl, rfl, rfl, rfl, rfl, rfl, rfl, rfl, rfl, rfl, fun _ => rfl, ?_, rfl⟩
    intro h'; rw [h1] at h'; exact absurd h' (by decide)

/-- after a process request -/
theorem ReqInv.request {env : Env} {s s' : Slave} {now dlc : Nat} (hi : ReqInv s)
    (h : processRequest env s now dlc = some s') :
    ReqInv s' ∧ s'.sync.prFlag = 0xFFFF ∧ s'.sync.prDlc = dlc ∧ Light s.node s'.node := by
  obtain ⟨l, h1, h2, h3, h4⟩ := processRequest_spec h
  have k := checkImage_keeps env (Slave.reqRx s) now hi.reqRx
  simp only at k
  have l0 : Light s.node (Slave.reqRx s).node := by rw [reqRx_eq]; exact ⟨rfl, rfl, rfl, rfl, rfl, rfl, rfl, rfl⟩
  refine ⟨⟨?_, Or.inr ⟨?_, ?_⟩⟩, ?_, ?_, (l0.trans k.2.2.1).trans l⟩
  · rw [h3]; exact k.2.1
  · rw [h3]
  · rw [h3]; show u16 (_ + 1) = 1; rw [k.1]
  · rw [h3]
  · rw [h3]

theorem ReqInv.frame {env : Env} {s s' : Slave} {now obj dlc id : Nat} {data : List Byte} (hi : ReqInv s)
    (h : handlerRx env s now obj dlc id data = some s') : ReqInv s' := by
  rw [handlerRx_eq] at h
  have hd : ReqInv (dataPart env s obj dlc id data) := by
    obtain ⟨-, -, -, -, -, c, hc, -⟩ := dataPart_keeps env s obj dlc id data
    exact hi.congr (by rw [hc]) (by rw [hc]) (by rw [hc])
  generalize dataPart env s obj dlc id data = s1 at *
  have hr : ∀ s2, reqPart env s1 now obj dlc = some s2 → ReqInv s2 := by
    intro s2 h2
    unfold reqPart at h2
    split at h2
    · exact (hd.request h2).1
    · injection h2 with h2; rw [← h2]; exact hd
  split at h
  · simp only [Option.bind_eq_some_iff] at h
    obtain ⟨s2, h2, h3⟩ := h
    have h2 := hr s2 h2
    simp only [sysPart, Option.map_eq_some_iff] at h3
    obtain ⟨⟨r, e⟩, h4, h5⟩ := h3
    obtain ⟨⟨c, hc⟩, -⟩ := sysMsg_keeps h4
    subst h5
    exact h2.congr (by show r.sync.errPr = _; rw [hc]) (by show r.sync.prFlag = _; rw [hc])
      (by show r.sync.prCnt = _; rw [hc])
  · exact hr s' h

theorem setModCb_keeps (env : Env) (s : Slave) (typ : List Byte) (nr : Nat) (f : SyncVars → Nat → SyncVars) :
    (setModCb env s typ nr f).1 = s ∨ ∃ tp, (setModCb env s typ nr f).1 = { s with sync := f s.sync tp } := by
  unfold setModCb; split
  · exact .inr ⟨_, rfl⟩
  · exact .inl rfl

theorem trigger_eq (env : Env) (s : Slave) (now : Nat) :
    ∃ p, trigger env s now = { s with sync := { s.sync with periode := p } } := by
  unfold trigger
  simp only
  generalize env.t2ms _ = d
  split
  · exact ⟨d, rfl⟩
  · exact ⟨s.sync.periode, rfl⟩

theorem ReqInv.step {env : Env} {s s' : Slave} {i : In} (hi : ReqInv s) (h : Slave.step env s i = some s') :
    ReqInv s' := by
  cases i with
  | frame now obj dlc id data => exact hi.frame h
  | trigger now =>
    injection h with h; subst h
    obtain ⟨p, hp⟩ := trigger_eq env s now
    rw [hp]; exact ⟨hi.err, hi.st⟩
  | getPeriode =>
    injection h with h; subst h
    unfold getPeriode; simp only
    split <;> exact ⟨hi.err, hi.st⟩
  | setCycle t =>
    injection h with h; subst h
    unfold setCycle
    split <;> exact ⟨hi.err, hi.st⟩
  | validCb typ nr f =>
    injection h with h; subst h
    rcases setModCb_keeps env s typ nr (fun v tp => { v with validCb := upd v.validCb tp f }) with e | ⟨tp, e⟩ <;> rw [e]
    · exact hi
    · exact ⟨hi.err, hi.st⟩
  | invalidCb typ nr f =>
    injection h with h; subst h
    rcases setModCb_keeps env s typ nr (fun v tp => { v with invalidCb := upd v.invalidCb tp f }) with e | ⟨tp, e⟩ <;> rw [e]
    · exact hi
    · exact ⟨hi.err, hi.st⟩
  | reqCb typ nr f =>
    injection h with h; subst h
    rcases setModCb_keeps env s typ nr (fun v tp => { v with reqCb := upd v.reqCb tp f }) with e | ⟨tp, e⟩ <;> rw [e]
    · exact hi
    · exact ⟨hi.err, hi.st⟩
  | timeCb f =>
    injection h with h; subst h
    unfold setTimeCb; split
    · exact ⟨hi.err, hi.st⟩
    · exact hi
  | resetCb f =>
    injection h with h; subst h
    unfold setResetCb; split
    · exact ⟨hi.err, hi.st⟩
    · exact hi
  | init baud =>
    injection h with h; subst h
    unfold Slave.init; simp only
    split
    · exact ⟨hi.err, hi.st⟩
    · exact ⟨hi.err, hi.st⟩
  | setMode m => injection h with h; subst h; exact ⟨hi.err, hi.st⟩
  | setBaud b => injection h with h; subst h; exact ⟨hi.err, hi.st⟩
  | table o => injection h with h; subst h; exact ⟨hi.err, hi.st⟩
  | allCb f => injection h with h; subst h; exact ⟨hi.err, hi.st⟩
  | firstCb f => injection h with h; subst h; exact ⟨hi.err, hi.st⟩
  | firstStatusCb f => injection h with h; subst h; exact ⟨hi.err, hi.st⟩

/-- a pending request stays pending -/
theorem flag_step {env : Env} {s s' : Slave} {x : In} (hi : ReqInv s) (hf : s.sync.prFlag = 0xFFFF)
    (h : Slave.step env s x = some s') : s'.sync.prFlag = 0xFFFF := by
  cases x with
  | frame now obj dlc id data =>
    have h' : handlerRx env s now obj dlc id data = some s' := h
    rw [handlerRx_eq] at h'
    obtain ⟨-, -, -, -, -, c, hc, -⟩ := dataPart_keeps env s obj dlc id data
    have hd : ReqInv (dataPart env s obj dlc id data) := hi.congr (by rw [hc]) (by rw [hc]) (by rw [hc])
    have hf1 : (dataPart env s obj dlc id data).sync.prFlag = 0xFFFF := by rw [hc]; exact hf
    generalize dataPart env s obj dlc id data = s1 at *
    have hr : ∀ s2, reqPart env s1 now obj dlc = some s2 → s2.sync.prFlag = 0xFFFF := by
      intro s2 h2
      unfold reqPart at h2
      split at h2
      · exact (hd.request h2).2.1
      · injection h2 with h2; rw [← h2]; exact hf1
    split at h'
    · simp only [Option.bind_eq_some_iff] at h'
      obtain ⟨s2, h2, h3⟩ := h'
      simp only [sysPart, Option.map_eq_some_iff] at h3
      obtain ⟨⟨r, e⟩, h4, h5⟩ := h3
      obtain ⟨⟨c, hc⟩, -⟩ := sysMsg_keeps h4
      subst h5
      show r.sync.prFlag = _
      rw [hc]; exact hr s2 h2
    · exact hr s' h'
  | trigger now =>
    injection h with h; subst h
    obtain ⟨p, hp⟩ := trigger_eq env s now
    rw [hp]; exact hf
  | getPeriode =>
    injection h with h; subst h
    unfold getPeriode; simp only
    split <;> exact hf
  | setCycle t =>
    injection h with h; subst h
    unfold setCycle
    split <;> exact hf
  | validCb typ nr f =>
    injection h with h; subst h
    rcases setModCb_keeps env s typ nr (fun v tp => { v with validCb := upd v.validCb tp f }) with e | ⟨tp, e⟩ <;> rw [e] <;> exact hf
  | invalidCb typ nr f =>
    injection h with h; subst h
    rcases setModCb_keeps env s typ nr (fun v tp => { v with invalidCb := upd v.invalidCb tp f }) with e | ⟨tp, e⟩ <;> rw [e] <;> exact hf
  | reqCb typ nr f =>
    injection h with h; subst h
    rcases setModCb_keeps env s typ nr (fun v tp => { v with reqCb := upd v.reqCb tp f }) with e | ⟨tp, e⟩ <;> rw [e] <;> exact hf
  | timeCb f =>
    injection h with h; subst h
    unfold setTimeCb; split <;> exact hf
  | resetCb f =>
    injection h with h; subst h
    unfold setResetCb; split <;> exact hf
  | init baud =>
    injection h with h; subst h
    unfold Slave.init; simp only
    split <;> exact hf
  | setMode m => injection h with h; subst h; exact hf
  | setBaud b => injection h with h; subst h; exact hf
  | table o => injection h with h; subst h; exact hf
  | allCb f => injection h with h; subst h; exact hf
  | firstCb f => injection h with h; subst h; exact hf
  | firstStatusCb f => injection h with h; subst h; exact hf

theorem run_ind {env : Env} (P : Slave → Prop) (hP : ∀ s s' i, P s → Slave.step env s i = some s' → P s')
    (is : List In) : ∀ {s s' : Slave}, P s → run env s is = some s' → P s' := by
  induction is with
  | nil => intro s s' h hr; injection hr with hr; rw [← hr]; exact h
  | cons i is ih =>
    intro s s' h hr
    simp only [run, Option.bind_eq_some_iff] at hr
    obtain ⟨s1, h1, h2⟩ := hr
    exact ih (hP s s1 i h h1) h2

theorem run_append {env : Env} (a b : List In) : ∀ (s : Slave),
    run env s (a ++ b) = (run env s a).bind fun s' => run env s' b := by
  induction a with
  | nil => intro s; rfl
  | cons i is ih =>
    intro s
    simp only [List.cons_append, run]
    cases Slave.step env s i with
    | none => rfl
    | some s1 => exact ih s1

theorem ReqInv.run {env : Env} {s s' : Slave} {is : List In} (hi : ReqInv s)
    (h : Slave.run env s is = some s') : ReqInv s' :=
  run_ind ReqInv (fun _ _ _ h1 h2 => h1.step h2) is hi h

theorem ReqInv.boot (mem : Nat → List Byte) : ReqInv (Slave.boot mem) := ⟨rfl, Or.inl ⟨rfl, rfl⟩⟩

/-- inputs that are no process request and do not change the module table -/
def Quiet (env : Env) : In → Prop
  | .frame _ obj _ _ data => obj ≠ 0 ∧ (obj = 2 ∨ (obj = 3 ∧ env.sysObj2 = true) → ¬ tableCmd (at8 data 0))
  | .table _ => False
  | .init _ => False
  | _ => True

/-- does the input count for object `j` of row `i`? -/
def countsIn (env : Env) (n : Node) (i j : Nat) : In → Bool
  | .frame _ obj dlc id _ => counts env n i j obj dlc id
  | _ => false

theorem counts_congr {env : Env} {n n' : Node} (l : Light n n') (i j obj dlc id : Nat) :
    counts env n' i j obj dlc id = counts env n i j obj dlc id := by
  unfold counts slotRow; rw [l.hw, l.slots, l.rows]

theorem countsIn_congr {env : Env} {n n' : Node} (l : Light n n') (i j : Nat) :
    countsIn env n' i j = countsIn env n i j := by
  funext x; cases x <;> simp only [countsIn, counts_congr l]

structure QuietRel (env : Env) (s s' : Slave) (add : Nat → Nat → Nat) : Prop where
  light : Light s.node s'.node
  flag : s'.sync.prFlag = s.sync.prFlag
  pcnt : s'.sync.prCnt = s.sync.prCnt
  dlc : s'.sync.prDlc = s.sync.prDlc
  first : s'.sync.first = s.sync.first
  cnt : ∀ i j, s.sync.cnt i j < 65536 → s'.sync.cnt i j = (s.sync.cnt i j + add i j) % 65536

theorem QuietRel.same {env : Env} {s s' : Slave} (h1 : Light s.node s'.node) (h2 : s'.sync.prFlag = s.sync.prFlag)
    (h3 : s'.sync.prCnt = s.sync.prCnt) (h4 : s'.sync.prDlc = s.sync.prDlc) (h6 : s'.sync.first = s.sync.first)
    (h5 : s'.sync.cnt = s.sync.cnt) : QuietRel env s s' fun _ _ => 0 :=
  ⟨h1, h2, h3, h4, h6, fun i j hlt => by rw [h5]; simp [Nat.mod_eq_of_lt hlt]⟩

theorem quiet_step {env : Env} {s s' : Slave} {x : In} (hq : Quiet env x) (h : Slave.step env s x = some s') :
    QuietRel env s s' fun i j => if countsIn env s.node i j x then 1 else 0 := by
  cases x with
  | frame now obj dlc id data =>
    have h' : handlerRx env s now obj dlc id data = some s' := h
    rw [handlerRx_eq] at h'
    obtain ⟨d1, d2, d3, d4, d5, c, d6, d7⟩ := dataPart_keeps env s obj dlc id data
    generalize dataPart env s obj dlc id data = s1 at *
    have hreq : reqPart env s1 now obj dlc = some s1 := by simp [reqPart, hq.1]
    rw [hreq] at h'
    have base : QuietRel env s s1 fun i j => if countsIn env s.node i j (.frame now obj dlc id data) then 1 else 0 := by
      refine ⟨d1, by rw [d6], by rw [d6], by rw [d6], by rw [d6], ?_⟩
      intro i j hlt
      rw [d6]
      show c i j = _
      rw [d7]
      have hci : countsIn env s.node i j (.frame now obj dlc id data) = counts env s.node i j obj dlc id := rfl
      rw [hci]
      cases counts env s.node i j obj dlc id
      · simp [Nat.mod_eq_of_lt hlt]
      · rfl
    split at h'
    · next ho =>
      simp only [Option.bind_some, sysPart, Option.map_eq_some_iff] at h'
      obtain ⟨⟨r, e⟩, h4, h5⟩ := h'
      obtain ⟨⟨cy, hc⟩, hl, -⟩ := sysMsg_keeps h4
      subst h5
      have hl := hl (hq.2 ho)
      refine ⟨(base.light.trans hl).trans (.report ..), ?_, ?_, ?_, ?_, ?_⟩
      · show r.sync.prFlag = _; rw [hc]; exact base.flag
      · show r.sync.prCnt = _; rw [hc]; exact base.pcnt
      · show r.sync.prDlc = _; rw [hc]; exact base.dlc
      · show r.sync.first = _; rw [hc]; exact base.first
      · intro i j hlt; show r.sync.cnt i j = _; rw [hc]; exact base.cnt i j hlt
    · injection h' with h'; rw [← h']; exact base
  | trigger now =>
    injection h with h; subst h
    obtain ⟨p, hp⟩ := trigger_eq env s now
    rw [hp]; exact .same (.refl _) rfl rfl rfl rfl rfl
  | getPeriode =>
    injection h with h; subst h
    unfold getPeriode; simp only
    split <;> exact .same (.refl _) rfl rfl rfl rfl rfl
  | setCycle t =>
    injection h with h; subst h
    unfold setCycle
    split <;> exact .same (.refl _) rfl rfl rfl rfl rfl
  | validCb typ nr f =>
    injection h with h; subst h
    rcases setModCb_keeps env s typ nr (fun v tp => { v with validCb := upd v.validCb tp f }) with e | ⟨tp, e⟩ <;> rw [e] <;>
      exact .same (.refl _) rfl rfl rfl rfl rfl
  | invalidCb typ nr f =>
    injection h with h; subst h
    rcases setModCb_keeps env s typ nr (fun v tp => { v with invalidCb := upd v.invalidCb tp f }) with e | ⟨tp, e⟩ <;> rw [e] <;>
      exact .same (.refl _) rfl rfl rfl rfl rfl
  | reqCb typ nr f =>
    injection h with h; subst h
    rcases setModCb_keeps env s typ nr (fun v tp => { v with reqCb := upd v.reqCb tp f }) with e | ⟨tp, e⟩ <;> rw [e] <;>
      exact .same (.refl _) rfl rfl rfl rfl rfl
  | timeCb f =>
    injection h with h; subst h
    unfold setTimeCb; split <;> exact .same (.refl _) rfl rfl rfl rfl rfl
  | resetCb f =>
    injection h with h; subst h
    unfold setResetCb; split <;> exact .same (.refl _) rfl rfl rfl rfl rfl
  | init baud => exact absurd hq id
  | table o => exact absurd hq id
  | setMode m => injection h with h; subst h; exact .same (.refl _) rfl rfl rfl rfl rfl
  | setBaud b => injection h with h; subst h; exact .same (.refl _) rfl rfl rfl rfl rfl
  | allCb f => injection h with h; subst h; exact .same (.refl _) rfl rfl rfl rfl rfl
  | firstCb f => injection h with h; subst h; exact .same (.refl _) rfl rfl rfl rfl rfl
  | firstStatusCb f => injection h with h; subst h; exact .same (.refl _) rfl rfl rfl rfl rfl

theorem quiet_run {env : Env} (xs : List In) : ∀ {s s' : Slave}, (∀ x ∈ xs, Quiet env x) →
    run env s xs = some s' → QuietRel env s s' fun i j => xs.countP (countsIn env s.node i j) := by
  induction xs with
  | nil =>
    intro s s' _ h
    injection h with h; rw [← h]
    exact .same (.refl _) rfl rfl rfl rfl rfl
  | cons x xs ih =>
    intro s s' hq h
    simp only [run, Option.bind_eq_some_iff] at h
    obtain ⟨s1, h1, h2⟩ := h
    have a := quiet_step (hq x (by simp)) h1
    have b := ih (fun y hy => hq y (by simp [hy])) h2
    refine ⟨a.light.trans b.light, b.flag.trans a.flag, b.pcnt.trans a.pcnt, b.dlc.trans a.dlc, b.first.trans a.first, ?_⟩
    intro i j hlt
    have e1 := a.cnt i j hlt
    have e2 := b.cnt i j (by rw [e1]; exact Nat.mod_lt _ (by decide))
    rw [e2, e1, countsIn_congr a.light, List.countP_cons]
    omega

end Slave
end LiCan
