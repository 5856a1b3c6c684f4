import Verif.Lemmas.SlaveTime
import Verif.Lemmas.ErrFifo
/-! # The error queue of the slave is always the result of reports and retrievals -/
namespace LiCan
open Node Spec
namespace Slave

theorem errRun_append (sz : Nat) (a b : List ErrOp) : ∀ q : ErrQ, (q.run sz (a ++ b)).1 = ((q.run sz a).1.run sz b).1 := by
  induction a with
  | nil => intro q; rfl
  | cons o os ih => intro q; exact ih _

/-- the error queue changed by reports and retrievals only -/
def Queued (env : Env) (n n' : Node) : Prop := ∃ h : List ErrOp, n'.errq = (n.errq.run env.qSize h).1

theorem Queued.refl {env : Env} (n : Node) : Queued env n n := ⟨[], rfl⟩
theorem Queued.of_errq {env : Env} {n n' : Node} (h : n'.errq = n.errq) : Queued env n n' := ⟨[], h⟩
theorem Queued.trans {env : Env} {a b c : Node} (h : Queued env a b) (g : Queued env b c) : Queued env a c := by
  obtain ⟨x, hx⟩ := h
  obtain ⟨y, hy⟩ := g
  exact ⟨x ++ y, by rw [errRun_append, ← hx, hy]⟩
theorem Queued.thenOk {env : Env} {n : Node} {r : Node × Err} {f : Node → Node × Err} (h : Queued env n r.1)
    (hf : ∀ n, Queued env n (f n).1) : Queued env n (Node.thenOk r f).1 := by
  unfold Node.thenOk; split
  · exact h.trans (hf _)
  · exact h
theorem Queued.forErr {env : Env} {f : Nat → Node → Node × Err} (hf : ∀ i n, Queued env n (f i n).1) (is : List Nat) :
    ∀ n, Queued env n (Node.forErr f is n).1 := by
  induction is with
  | nil => intro n; exact .refl n
  | cons i is ih => intro n; exact (hf i n).thenOk ih

theorem define_queued (env : Env) (n : Node) (o : Nat) (d : ObjDef) : Queued env n (define env n o d).1 := by
  obtain ⟨hw, u, e⟩ := define_eq env n o d
  rw [e]; exact .of_errq rfl

theorem report_queued (env : Env) (n : Node) (e : Err) : Queued env n (report env n e) := by
  unfold report; split
  · exact ⟨[.report (canMsgCode e) 0 prioInfo (extractGroup (canMsgCode e)) (extractSubgroup (canMsgCode e)) (n.rows 0).nr], rfl⟩
  · exact .refl n

theorem txCnfg_queued (env : Env) (n : Node) (tp obj nr : Nat) : Queued env n (txCnfg env n tp obj nr).1 := by
  unfold txCnfg; split
  · exact .refl _
  · split
    · exact .refl _
    · exact .of_errq rfl

theorem syncOn_queued (env : Env) (n : Node) (tp : Nat) : Queued env n (syncOn n tp) := by
  rw [syncOn_eq]; exact .of_errq rfl

theorem syncOff_queued (env : Env) (n : Node) (tp : Nat) : Queued env n (syncOff env n tp) := by
  obtain ⟨m, u, e⟩ := syncOff_eq env n tp
  rw [e]; exact .of_errq rfl

theorem setSilentAwake_queued (env : Env) (n : Node) (tp st : Nat) : Queued env n (setSilentAwake env n tp st).1 := by
  unfold setSilentAwake
  have h0 : Queued env n { n with silent := upd n.silent tp st, log := .silentCb tp (n.rows tp).nr st :: n.log } :=
    .of_errq rfl
  split
  · simp only
    split
    · exact h0.trans (syncOff_queued ..)
    · split
      · exact h0.trans (syncOn_queued ..)
      · exact h0
  · exact .refl n

theorem defineCtrl_queued (env : Env) (n : Node) (idx nr : Nat) : Queued env n (defineCtrl env n idx nr).1 := by
  unfold defineCtrl
  split
  · exact .refl _
  · split
    · exact .refl _
    · next o _ => exact Queued.trans (b := { n with ctrlObj := upd n.ctrlObj idx o }) (.of_errq rfl) (define_queued ..)

theorem finish_queued (env : Env) (n : Node) (tp idx nr : Nat) (nrs : List Nat) : Queued env n (finish env n tp idx nr nrs).1 := by
  unfold finish
  simp only
  refine ((((defineCtrl_queued ..).thenOk fun n => define_queued ..).thenOk fun n => define_queued ..).thenOk ?_).thenOk
    fun n => setSilentAwake_queued ..
  intro n; split
  · exact define_queued ..
  · exact .refl _

theorem setRx1_queued (env : Env) (tp nr i : Nat) (n : Node) : Queued env n (setRx1 env tp nr i n).1 := by
  unfold setRx1
  simp only
  split
  · exact .of_errq rfl
  · refine Queued.thenOk ?_ ?_
    · refine Queued.trans ?_ (define_queued ..)
      exact .of_errq rfl
    · intro n; unfold addSlot; split
      · exact .of_errq rfl
      · exact .refl _

theorem setModule_queued (env : Env) (n : Node) (tp : Nat) (tpl : Row) (nr : Nat) (rx tx : Nat → Nat) :
    Queued env n (setModule env n tp tpl nr rx tx).1 := by
  unfold setModule
  simp only
  refine Queued.thenOk ?_ fun n => Queued.thenOk ?_ fun n => ?_
  · unfold setTx
    refine Queued.trans (b := n.fillRow tp tpl (effNr tp nr) rx tx) (.of_errq rfl) (.forErr ?_ _ _)
    intro i n
    refine Queued.trans ?_ (txCnfg_queued ..)
    exact .of_errq rfl
  · unfold setRx
    simp only
    refine Queued.trans ?_ (.forErr (setRx1_queued env tp (effNr tp nr)) _ _)
    exact .of_errq rfl
  · have := finish_queued env n tp n.nrMod (effNr tp nr) ((List.range (tp + 1)).map fun i => (n.rows i).nr)
    generalize finish env n tp n.nrMod (effNr tp nr) ((List.range (tp + 1)).map fun i => (n.rows i).nr) = r at *
    exact this

theorem addModule_queued (env : Env) (n : Node) (tpl : Row) (nr : Nat) (rx tx : Nat → Nat) :
    Queued env n (addModule env n tpl nr rx tx).1 := by
  unfold addModule
  split
  · exact .refl _
  · split
    · exact (setModule_queued ..).trans (report_queued ..)
    · exact (setModule_queued ..).trans (report_queued ..)

theorem changeNr_queued (env : Env) (n : Node) (typ : List Byte) (nr act : Nat) : Queued env n (changeNr env n typ nr act).1 := by
  unfold changeNr
  split
  · exact .of_errq rfl
  · next tp _ =>
    simp only
    refine Queued.thenOk ?_ fun n => Queued.thenOk ?_ fun n => finish_queued ..
    · unfold renumTx
      refine Queued.trans (b := n.setRow tp fun r => { r with nr := nr }) (.of_errq rfl) (.forErr ?_ _ _)
      intro i n; exact txCnfg_queued ..
    · unfold renumRx
      refine .forErr ?_ _ _
      intro i n; exact define_queued ..

theorem changeModuleNr_queued (env : Env) (n : Node) (tp nr : Nat) : Queued env n (changeModuleNr env n tp nr).1 := by
  unfold changeModuleNr
  simp only
  split
  · exact changeNr_queued ..
  · split
    · exact (changeNr_queued ..).thenOk fun n => setSilentAwake_queued ..
    · exact (changeNr_queued ..).thenOk fun n => setSilentAwake_queued ..
    · exact .refl _

theorem retx_queued (env : Env) (js : List Nat) : ∀ r : Node × Err, Queued env r.1 (retx env js r).1 := by
  have inner : ∀ (j : Nat) (is : List Nat) (r : Node × Err),
      Queued env r.1 (is.foldl (fun r i => txCnfg env r.1 j i (r.1.rows j).nr) r).1 := by
    intro j is
    induction is with
    | nil => intro r; exact .refl _
    | cons i is ih => intro r; exact (txCnfg_queued ..).trans (ih _)
  induction js with
  | nil => intro r; exact .refl _
  | cons j js ih =>
    intro r
    unfold retx
    split
    · exact (inner _ _ _).trans (ih _)
    · exact ih _

theorem changeType_queued (env : Env) (n : Node) (tp : Nat) (typ : List Byte) : Queued env n (changeType env n tp typ).1 := by
  unfold changeType
  split
  · exact .refl _
  · split
    · simp only
      generalize hm : ({ n.setRow tp _ with tx := _ } : Node) = m
      have h0 : Queued env n m := by rw [← hm]; exact .of_errq rfl
      have h1 := fun js => h0.trans (retx_queued env js (m, E.ok))
      split
      · exact h1 _
      · exact h1 _
    · exact .refl _

theorem nodeInit_queued (env : Env) (n : Node) : Queued env n (Node.init env n).1 := by
  unfold Node.init
  simp only
  refine (((Queued.thenOk ?_ fun n => define_queued ..).thenOk ?_).thenOk fun n => define_queued ..).thenOk
    fun n => define_queued ..
  · refine Queued.trans ?_ (define_queued ..)
    exact .of_errq rfl
  · intro n; split
    · exact define_queued ..
    · exact .refl _


theorem send_queued (env : Env) (n : Node) (f : Frame) : Queued env n (n.send env f).1 := .of_errq rfl

theorem sendSys_errq (env : Env) (n : Node) (nr : Nat) (d : List Byte) : (n.sendSys env nr d).1.errq = n.errq := by
  unfold Node.sendSys; split
  · split <;> rfl
  · rfl

theorem sendOneError_queued (env : Env) (n : Node) : Queued env n (sendOneError env n).1 := by
  refine ⟨[.get], ?_⟩
  show _ = (n.errq.getFull env.qSize).1
  unfold sendOneError
  split
  · next q e x h =>
    rw [h]
    split
    · unfold sendError; rw [sendSys_errq]
    · rfl
  · next q e h => rw [h]

theorem drain_queued (env : Env) (k : Nat) : ∀ (r r' : Node × Err), drain env k r = some r' → Queued env r.1 r'.1 := by
  induction k with
  | zero =>
    intro r r' h
    unfold drain at h
    split at h
    · injection h with h; rw [h]; exact .refl _
    · cases h
  | succ k ih =>
    intro r r' h
    unfold drain at h
    split at h
    · injection h with h; rw [h]; exact .refl _
    · exact (sendOneError_queued env r.1).trans (ih _ _ h)

theorem sendOne_queued (env : Env) (n : Node) (tp obj : Nat) (buf : List Byte) : Queued env n (sendOne env n tp obj buf).1 := by
  unfold sendOne
  simp only
  split
  · exact .of_errq rfl
  · split
    · exact (send_queued ..).trans (report_queued ..)
    · exact report_queued ..

theorem process_queued {env : Env} {n n' : Node} (h : n.sendProcessData env = some n') : Queued env n n' :=
  sendRun_ind env (Queued env n) (fun _ _ _ _ hq => hq.trans (sendOne_queued ..)) 32 _ (.refl _) n' h

theorem nodeStep_queued (env : Env) (n : Node) (o : Op) : Queued env n (Node.step env n o).1 := by
  cases o with
  | add tpl nr rx tx => exact addModule_queued ..
  | silentAwake tp st => exact setSilentAwake_queued ..
  | silentAwakeBy typ nr st =>
    show Queued env n (setSilentAwakeBy env n typ nr st).1
    unfold setSilentAwakeBy; split
    · exact setSilentAwake_queued ..
    · exact .refl _
  | setActive typ =>
    show Queued env n (setActive env n typ).1
    unfold setActive; split
    · exact syncOn_queued ..
    · exact .refl _
  | setCritical typ =>
    show Queued env n (setCritical env n typ).1
    unfold setCritical; split
    · exact syncOff_queued ..
    · exact .refl _
  | process =>
    show Queued env n ((sendProcessData env n).getD n)
    cases h : sendProcessData env n with
    | none => exact .refl _
    | some n' => exact process_queued h
  | changeNr typ nr act => exact changeNr_queued ..
  | changeModuleNr tp nr => exact changeModuleNr_queued ..
  | changeTypeAdd typ tpl rx tx cb =>
    show Queued env n (changeTypeAdd env n typ tpl rx tx cb).1
    unfold changeTypeAdd; split
    · exact .of_errq rfl
    · exact .refl _
  | changeType tp typ => exact changeType_queued ..

theorem statusAckn_errq (env : Env) (s : Slave) (tp : Nat) : (statusAckn env s tp).1.node.errq = s.node.errq := by
  unfold statusAckn
  split
  · rfl
  · split
    · rfl
    · exact sendSys_errq ..

theorem versionAckn_errq (env : Env) (s : Slave) (tp : Nat) : (versionAckn env s tp).1.node.errq = s.node.errq := by
  unfold versionAckn
  split
  · rfl
  · split
    · rfl
    · simp only
      split
      · exact sendSys_errq ..
      · exact (sendSys_errq ..).trans (sendSys_errq ..)

theorem forRows_errq {f : Slave → Nat → Slave × Err} (hf : ∀ s i, (f s i).1.node.errq = s.node.errq) (is : List Nat) :
    ∀ s, (forRows f is s).1.node.errq = s.node.errq := by
  induction is with
  | nil => intro s; rfl
  | cons i is ih =>
    intro s
    simp only [forRows]
    split
    · exact hf s i
    · exact (ih _).trans (hf s i)

theorem statusRequest_errq (env : Env) (s : Slave) (dst : Option Nat) :
    (statusRequest env s dst).1.node.errq = s.node.errq := by
  rw [statusRequest_head]
  cases dst with
  | none => exact forRows_errq (statusAckn_errq env) _ _
  | some tp => exact statusAckn_errq env _ tp

theorem sysMsg_queued {env : Env} {s s' : Slave} {nr dlc : Nat} {src : List Byte} {e : Err}
    (h : sysMsg env s nr dlc src = some (s', e)) : Queued env s.node s'.node := by
  have triv : ∀ {y : Slave × Err}, y.1.node.errq = s.node.errq → some y = some (s', e) → Queued env s.node s'.node := by
    intro y hy h
    have := congrArg Prod.fst (Option.some.inj h)
    simp only at this
    subst this
    exact .of_errq hy
  have trivq : ∀ {y : Slave × Err}, Queued env s.node y.1.node → some y = some (s', e) → Queued env s.node s'.node := by
    intro y hy h
    have := congrArg Prod.fst (Option.some.inj h)
    simp only at this
    subst this
    exact hy
  unfold sysMsg at h
  split at h
  · exact triv rfl h
  simp only at h
  generalize (if nr = 1 then none else findNr env s.node nr) = dst at h
  split at h
  · exact triv rfl h
  split at h
  · exact triv rfl h
  split at h
  · have hs := statusRequest_errq env s dst
    generalize statusRequest env s dst = r at h hs
    split at h
    · exact triv hs h
    · split at h
      · simp only [Option.map_eq_some_iff] at h
        obtain ⟨x, h1, h2⟩ := h
        injection h2 with h2 _
        subst h2
        exact (Queued.of_errq (n := s.node) hs).trans (drain_queued env _ _ _ h1)
      · exact triv hs h
  · split at h
    · exact triv rfl h
    · exact triv rfl h
  · exact triv rfl h
  · split at h
    · exact triv (forRows_errq (versionAckn_errq env) _ _) h
    · exact triv (versionAckn_errq ..) h
  · split at h
    · exact triv rfl h
    · exact triv rfl h
  · refine triv ?_ h
    unfold setCycle; split <;> rfl
  · exact triv rfl h
  · exact triv rfl h
  · split at h
    · exact triv rfl h
    · split at h
      · exact trivq (changeModuleNr_queued ..) h
      · exact triv rfl h
  · split at h
    · exact triv rfl h
    · refine trivq ?_ h
      unfold sysSilentAwake
      split
      · split
        · split
          · exact setSilentAwake_queued ..
          · exact .refl _
        · exact .refl _
      · exact .refl _
  · split at h
    · exact triv rfl h
    · refine trivq ?_ h
      unfold sysSilentAwake
      split
      · split
        · split
          · exact setSilentAwake_queued ..
          · exact .refl _
        · exact .refl _
      · exact .refl _
  · exact triv rfl h
  · split at h
    · exact triv rfl h
    · exact triv rfl h
  · split at h
    · exact triv rfl h
    · split at h
      · exact trivq (changeType_queued ..) h
      · exact triv rfl h
  · exact triv rfl h

theorem request_queued {env : Env} {s s' : Slave} {now dlc : Nat}
    (hi : ReqInv s) (h : processRequest env s now dlc = some s') : Queued env s.node s'.node := by
  have e0 : (checkImage env (reqRx s) now).node.errq = s.node.errq := by
    have er : (reqRx s).node.errq = s.node.errq := by rw [reqRx_eq]
    rw [← er]
    rcases checkImage_cases env (reqRx s) now hi.reqRx with ⟨-, e⟩ | ⟨-, -, e⟩ | ⟨c1, c2, c3⟩
    · rw [e]
    · rw [e]; rfl
    · obtain ⟨v, mt, er, e, -⟩ := checkImage_eval env (reqRx s) now c1 c2 c3
      rw [e]
  unfold processRequest at h
  simp only at h
  generalize checkImage env (reqRx s) now = k at h e0
  refine (Queued.of_errq (n' := k.node) e0).trans ?_
  split at h
  · cases h
  · next n hn =>
    have h1 := process_queued hn
    split at h
    · injection h with h; subst h
      exact h1.trans (sendOneError_queued env n)
    · injection h with h; subst h
      exact h1

theorem slaveStep_queued {env : Env} {s s' : Slave} {x : In} (hi : ReqInv s) (h : Slave.step env s x = some s') :
    Queued env s.node s'.node := by
  cases x with
  | frame now obj dlc id data =>
    have h' : handlerRx env s now obj dlc id data = some s' := h
    rw [handlerRx_eq] at h'
    have hd : (dataPart env s obj dlc id data).node.errq = s.node.errq := (dataPart_keeps env s obj dlc id data).2.2.2.2.1
    have hi1 : ReqInv (dataPart env s obj dlc id data) := by
      obtain ⟨-, -, -, -, -, c, hc, -⟩ := dataPart_keeps env s obj dlc id data
      exact hi.congr (by rw [hc]) (by rw [hc]) (by rw [hc])
    generalize dataPart env s obj dlc id data = s1 at *
    refine (Queued.of_errq (n' := s1.node) hd).trans ?_
    have hr : ∀ s2, reqPart env s1 now obj dlc = some s2 → Queued env s1.node s2.node := by
      intro s2 h2
      unfold reqPart at h2
      split at h2
      · exact request_queued hi1 h2
      · injection h2 with h2; rw [← h2]; exact .refl _
    split at h'
    · simp only [Option.bind_eq_some_iff] at h'
      obtain ⟨s2, h2, h3⟩ := h'
      simp only [sysPart, Option.map_eq_some_iff] at h3
      obtain ⟨⟨r, e⟩, h4, h5⟩ := h3
      subst h5
      exact ((hr s2 h2).trans (sysMsg_queued h4)).trans (report_queued ..)
    · exact hr s' h'
  | trigger now =>
    injection h with h; subst h
    obtain ⟨p, hp⟩ := trigger_eq env s now
    rw [hp]; exact .refl _
  | getPeriode => injection h with h; subst h; exact .refl _
  | setCycle t => injection h with h; subst h; rw [setCycle_eq]; exact .refl _
  | validCb typ nr f =>
    injection h with h; subst h
    rcases setModCb_keeps env s typ nr (fun v tp => { v with validCb := upd v.validCb tp f }) with e | ⟨tp, e⟩ <;> rw [e] <;> exact .refl _
  | invalidCb typ nr f =>
    injection h with h; subst h
    rcases setModCb_keeps env s typ nr (fun v tp => { v with invalidCb := upd v.invalidCb tp f }) with e | ⟨tp, e⟩ <;> rw [e] <;> exact .refl _
  | reqCb typ nr f =>
    injection h with h; subst h
    rcases setModCb_keeps env s typ nr (fun v tp => { v with reqCb := upd v.reqCb tp f }) with e | ⟨tp, e⟩ <;> rw [e] <;> exact .refl _
  | timeCb f => injection h with h; subst h; unfold setTimeCb; split <;> exact .refl _
  | resetCb f => injection h with h; subst h; unfold setResetCb; split <;> exact .refl _
  | init baud =>
    injection h with h; subst h
    unfold Slave.init; simp only
    split <;> exact nodeInit_queued env s.node
  | table o => injection h with h; subst h; exact nodeStep_queued ..
  | setMode m => injection h with h; subst h; exact .refl _
  | setBaud b => injection h with h; subst h; exact .refl _
  | allCb f => injection h with h; subst h; exact .refl _
  | firstCb f => injection h with h; subst h; exact .refl _
  | firstStatusCb f => injection h with h; subst h; exact .refl _

/-- after every history from power-on the error queue is the result of reports and retrievals -/
theorem errq_reach (env : Env) (mem : Nat → List Byte) (is : List In) (s : Slave)
    (h : run env (Slave.boot mem) is = some s) : ∃ ops, s.node.errq = (ErrQ.boot.run env.qSize ops).1 := by
  refine (run_ind (fun s => ReqInv s ∧ Queued env (Node.boot mem) s.node) ?_ is ⟨.boot mem, .refl _⟩ h).2
  rintro s s' i ⟨a, b⟩ hs
  exact ⟨a.step hs, b.trans (slaveStep_queued a hs)⟩

end Slave
end LiCan
