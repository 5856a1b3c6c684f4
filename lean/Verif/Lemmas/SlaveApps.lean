import Verif.Lemmas.SlaveTime
/-! # The slave makes none of the calls of the transfer, the tunnel and the baud rate search -/
namespace LiCan
open Node
namespace Slave

/-- the calls of transfer, tunnel and baud rate search, latest first -/
def apps (l : List Ev) : List ACall := l.filterMap fun e => match e with
  | .app c => some c
  | _ => none

theorem apps_append (a b : List Ev) : apps (a ++ b) = apps a ++ apps b := List.filterMap_append ..

theorem apps_none {l : List Ev} (h : ∀ e ∈ l, ∀ c, e ≠ .app c) : apps l = [] := by
  simp only [apps, List.filterMap_eq_nil_iff]
  intro e he
  cases e with
  | app c => exact absurd rfl (h _ he c)
  | _ => rfl

theorem apps_frames {l : List Ev} (h : OnlyFrames l) : apps l = [] :=
  apps_none fun e he c => by
    obtain ⟨f, ok, rfl⟩ := h e he
    exact fun h => by cases h

theorem calls_app {f : Option Nat} {e : Ev} (h : e ∈ calls f) (c : ACall) : e ≠ .app c := by
  cases f with
  | none => cases h
  | some k => rw [List.mem_singleton.1 h]; exact fun h => by cases h

def SameApps (n n' : Node) : Prop := apps n'.log = apps n.log

theorem SameApps.refl (n : Node) : SameApps n n := rfl
theorem SameApps.trans {a b c : Node} (h : SameApps a b) (g : SameApps b c) : SameApps a c :=
  Eq.trans (b := apps b.log) g h
theorem SameApps.of_log {n n' : Node} (h : n'.log = n.log) : SameApps n n' := by unfold SameApps; rw [h]
theorem SameApps.thenOk {n : Node} {r : Node × Err} {f : Node → Node × Err} (h : SameApps n r.1)
    (hf : ∀ n, SameApps n (f n).1) : SameApps n (Node.thenOk r f).1 := by
  unfold Node.thenOk; split
  · exact h.trans (hf _)
  · exact h
theorem SameApps.forErr {f : Nat → Node → Node × Err} (hf : ∀ i n, SameApps n (f i n).1) (is : List Nat) :
    ∀ n, SameApps n (Node.forErr f is n).1 := by
  induction is with
  | nil => intro n; exact .refl n
  | cons i is ih => intro n; exact (hf i n).thenOk ih

theorem SentOnly.apps {n n' : Node} (h : SentOnly n n') : SameApps n n' := by
  obtain ⟨l, e, o⟩ := h.log
  unfold SameApps; rw [e, apps_append, apps_frames o]; rfl

theorem define_apps (env : Env) (n : Node) (o : Nat) (d : ObjDef) : SameApps n (define env n o d).1 := by
  obtain ⟨hw, u, e⟩ := define_eq env n o d
  rw [e]; exact .of_log rfl

theorem report_apps (env : Env) (n : Node) (e : Err) : SameApps n (report env n e) := .of_log (report_log ..)

theorem txCnfg_apps (env : Env) (n : Node) (tp obj nr : Nat) : SameApps n (txCnfg env n tp obj nr).1 := by
  unfold txCnfg; split
  · exact .refl _
  · split
    · exact .refl _
    · exact .of_log rfl

theorem syncOn_apps (n : Node) (tp : Nat) : SameApps n (syncOn n tp) := by
  rw [syncOn_eq]; exact .of_log rfl

theorem syncOff_apps (env : Env) (n : Node) (tp : Nat) : SameApps n (syncOff env n tp) := by
  obtain ⟨m, u, e⟩ := syncOff_eq env n tp
  rw [e]; exact .of_log rfl

theorem setSilentAwake_apps (env : Env) (n : Node) (tp st : Nat) : SameApps n (setSilentAwake env n tp st).1 := by
  unfold setSilentAwake
  have h0 : SameApps n { n with silent := upd n.silent tp st,
                                 log := .silentCb tp (n.rows tp).nr st :: n.log } := rfl
  split
  · simp only
    split
    · exact h0.trans (syncOff_apps ..)
    · split
      · exact h0.trans (syncOn_apps ..)
      · exact h0
  · exact .refl n

theorem defineCtrl_apps (env : Env) (n : Node) (idx nr : Nat) : SameApps n (defineCtrl env n idx nr).1 := by
  unfold defineCtrl
  split
  · exact .refl _
  · split
    · exact .refl _
    · next o _ => exact SameApps.trans (b := { n with ctrlObj := upd n.ctrlObj idx o }) (.of_log rfl) (define_apps ..)

theorem finish_apps (env : Env) (n : Node) (tp idx nr : Nat) (nrs : List Nat) : SameApps n (finish env n tp idx nr nrs).1 := by
  unfold finish
  simp only
  refine ((((defineCtrl_apps ..).thenOk fun n => define_apps ..).thenOk fun n => define_apps ..).thenOk ?_).thenOk
    fun n => setSilentAwake_apps ..
  intro n; split
  · exact define_apps ..
  · exact .refl _

theorem setRx1_apps (env : Env) (tp nr i : Nat) (n : Node) : SameApps n (setRx1 env tp nr i n).1 := by
  unfold setRx1
  simp only
  split
  · exact .of_log rfl
  · refine SameApps.thenOk ?_ ?_
    · refine SameApps.trans ?_ (define_apps ..)
      exact .of_log rfl
    · intro n; unfold addSlot; split
      · exact .of_log rfl
      · exact .refl _

theorem setModule_apps (env : Env) (n : Node) (tp : Nat) (tpl : Row) (nr : Nat) (rx tx : Nat → Nat) :
    SameApps n (setModule env n tp tpl nr rx tx).1 := by
  unfold setModule
  simp only
  refine SameApps.thenOk ?_ fun n => SameApps.thenOk ?_ fun n => ?_
  · unfold setTx
    refine SameApps.trans (b := n.fillRow tp tpl (effNr tp nr) rx tx) (.of_log rfl) (.forErr ?_ _ _)
    intro i n
    refine SameApps.trans ?_ (txCnfg_apps ..)
    exact .of_log rfl
  · unfold setRx
    simp only
    refine SameApps.trans ?_ (.forErr (setRx1_apps env tp (effNr tp nr)) _ _)
    exact .of_log rfl
  · have := finish_apps env n tp n.nrMod (effNr tp nr) ((List.range (tp + 1)).map fun i => (n.rows i).nr)
    generalize finish env n tp n.nrMod (effNr tp nr) ((List.range (tp + 1)).map fun i => (n.rows i).nr) = r at *
    exact this

theorem addModule_apps (env : Env) (n : Node) (tpl : Row) (nr : Nat) (rx tx : Nat → Nat) :
    SameApps n (addModule env n tpl nr rx tx).1 := by
  unfold addModule
  split
  · exact .refl _
  · split
    · exact (setModule_apps ..).trans (report_apps ..)
    · exact (setModule_apps ..).trans (report_apps ..)

theorem changeNr_apps (env : Env) (n : Node) (typ : List Byte) (nr act : Nat) : SameApps n (changeNr env n typ nr act).1 := by
  unfold changeNr
  split
  · exact .of_log rfl
  · next tp _ =>
    simp only
    refine SameApps.thenOk ?_ fun n => SameApps.thenOk ?_ fun n => finish_apps ..
    · unfold renumTx
      refine SameApps.trans (b := n.setRow tp fun r => { r with nr := nr }) (.of_log rfl) (.forErr ?_ _ _)
      intro i n; exact txCnfg_apps ..
    · unfold renumRx
      refine .forErr ?_ _ _
      intro i n; exact define_apps ..

theorem changeModuleNr_apps (env : Env) (n : Node) (tp nr : Nat) : SameApps n (changeModuleNr env n tp nr).1 := by
  unfold changeModuleNr
  simp only
  split
  · exact changeNr_apps ..
  · split
    · exact (changeNr_apps ..).thenOk fun n => setSilentAwake_apps ..
    · exact (changeNr_apps ..).thenOk fun n => setSilentAwake_apps ..
    · exact .refl _

theorem retx_apps (env : Env) (js : List Nat) : ∀ r : Node × Err, SameApps r.1 (retx env js r).1 := by
  have inner : ∀ (j : Nat) (is : List Nat) (r : Node × Err),
      SameApps r.1 (is.foldl (fun r i => txCnfg env r.1 j i (r.1.rows j).nr) r).1 := by
    intro j is
    induction is with
    | nil => intro r; exact .refl _
    | cons i is ih => intro r; exact (txCnfg_apps ..).trans (ih _)
  induction js with
  | nil => intro r; exact .refl _
  | cons j js ih =>
    intro r
    unfold retx
    split
    · exact (inner _ _ _).trans (ih _)
    · exact ih _

theorem changeType_apps (env : Env) (n : Node) (tp : Nat) (typ : List Byte) : SameApps n (changeType env n tp typ).1 := by
  unfold changeType
  split
  · exact .refl _
  · split
    · simp only
      generalize hm : ({ n.setRow tp _ with tx := _ } : Node) = m
      have h0 : SameApps n m := by rw [← hm]; exact .of_log rfl
      have h1 := fun js => h0.trans (retx_apps env js (m, E.ok))
      split
      · exact h1 _
      · exact h1 _
    · exact .refl _

theorem nodeStep_apps (env : Env) (n : Node) (o : Op) : SameApps n (Node.step env n o).1 := by
  cases o with
  | add tpl nr rx tx => exact addModule_apps ..
  | silentAwake tp st => exact setSilentAwake_apps ..
  | silentAwakeBy typ nr st =>
    show SameApps n (setSilentAwakeBy env n typ nr st).1
    unfold setSilentAwakeBy; split
    · exact setSilentAwake_apps ..
    · exact .refl _
  | setActive typ =>
    show SameApps n (setActive env n typ).1
    unfold setActive; split
    · exact syncOn_apps ..
    · exact .refl _
  | setCritical typ =>
    show SameApps n (setCritical env n typ).1
    unfold setCritical; split
    · exact syncOff_apps ..
    · exact .refl _
  | process =>
    show SameApps n ((sendProcessData env n).getD n)
    cases h : sendProcessData env n with
    | none => exact .refl _
    | some n' => exact SentOnly.apps ⟨.sendProcess h, sendProcess_log h⟩
  | changeNr typ nr act => exact changeNr_apps ..
  | changeModuleNr tp nr => exact changeModuleNr_apps ..
  | changeTypeAdd typ tpl rx tx cb =>
    show SameApps n (changeTypeAdd env n typ tpl rx tx cb).1
    unfold changeTypeAdd; split
    · exact .of_log rfl
    · exact .refl _
  | changeType tp typ => exact changeType_apps ..

theorem nodeInit_apps (env : Env) (n : Node) : SameApps n (Node.init env n).1 := by
  unfold Node.init
  simp only
  refine (((SameApps.thenOk ?_ fun n => define_apps ..).thenOk ?_).thenOk fun n => define_apps ..).thenOk
    fun n => define_apps ..
  · refine SameApps.trans ?_ (define_apps ..)
    exact .of_log rfl
  · intro n; split
    · exact define_apps ..
    · exact .refl _
theorem SysEff.apps {env : Env} {s s' : Slave} {src : List Byte} (h : SysEff env s src s') : SameApps s.node s'.node := by
  cases h with
  | none => exact .refl _
  | status h n hn =>
    refine SameApps.trans ?_ hn.apps
    unfold SameApps
    simp only [statusHead]
    rw [apps_append, apps_append]
    have e1 : Slave.apps (if env.randAck = true then [Ev.wait (rand s.sys.rand).2] else []) = [] := by split <;> rfl
    have e2 : Slave.apps (if s.sys.first = true then [] else Slave.calls s.sys.firstCb) = [] := by
      split
      · rfl
      · exact apps_none fun e he c => calls_app he c
    rw [e1, e2]; rfl
  | baud h => exact .refl _
  | version h n hn => exact hn.apps
  | time h f t z d hf => rfl
  | cycle h =>
    have e : ∃ c, (setCycle env s (at8 src 2)).1 = { s with sync := { s.sync with cycle := c } } := by
      unfold setCycle; split <;> exact ⟨_, rfl⟩
    obtain ⟨c, e⟩ := e
    rw [e]; rfl
  | number h hs tp => exact changeModuleNr_apps ..
  | silent h hs tp htp st hst => exact setSilentAwake_apps ..
  | reset h f b hf => rfl
  | type h hs tp => exact changeType_apps ..

theorem request_apps {env : Env} {s s' : Slave} {now dlc : Nat}
    (h : processRequest env s now dlc = some s') : SameApps s.node s'.node := by
  obtain ⟨l, h1, h2, h3, fr, h4, h5⟩ := processRequest_spec h
  have rq := reqRx_eq s
  have img : apps (checkImage env (reqRx s) now).node.log = apps (reqRx s).node.log := by
    generalize reqRx s = s
    by_cases c1 : s.sync.prFlag = 0xFFFF
    case neg => unfold checkImage; rw [if_neg c1]
    by_cases c2 : 1 < s.sync.prDlc
    · unfold checkImage; rw [if_pos c1, if_pos c2]; rfl
    by_cases c3 : s.sync.prCnt = 1
    case neg => unfold checkImage; rw [if_pos c1, if_neg c2, if_pos c3]; rfl
    · have c2 : s.sync.prDlc ≤ 1 := by omega
      obtain ⟨v, mt, er, e, -⟩ := checkImage_eval env s now c1 c2 c3
      rw [e]
      show apps (_ ++ _) = _
      rw [apps_append, apps_none ?_]
      · rfl
      intro e he c
      rw [List.mem_reverse] at he
      unfold imageEvs at he
      rcases List.mem_append.1 he with he | he
      · simp only [List.mem_flatMap] at he
        obtain ⟨i, _, he⟩ := he
        unfold modEvs at he
        split at he <;> exact calls_app he c
      · split at he
        · exact calls_app he c
        · cases he
  unfold SameApps
  rw [h4, apps_append, apps_frames h5, List.nil_append, img, rq]
  show apps (_ ++ _) = _
  rw [apps_append, apps_none ?_]
  · rfl
  intro e he c
  rw [List.mem_reverse] at he
  unfold reqEvs at he
  rcases List.mem_append.1 he with he | he
  · split at he
    · cases he
    · exact calls_app he c
  · simp only [List.mem_flatMap] at he
    obtain ⟨i, _, he⟩ := he
    exact calls_app he c

/-- no input of the slave -/
theorem step_apps {env : Env} {s s' : Slave} {x : In} (h : Slave.step env s x = some s') :
    SameApps s.node s'.node := by
  cases x with
  | frame now obj dlc id data =>
    by_cases ho : obj = 0
    · subst ho
      obtain ⟨s1, r, hp⟩ := frame_request h
      exact SameApps.trans (.of_log r.log) (request_apps hp)
    · rcases frame_other ho h with r | ⟨s1, s2, e, r, hm, rfl⟩
      · exact .of_log r.log
      · exact (SameApps.of_log r.log).trans ((sysMsg_eff hm).apps.trans (report_apps ..))
  | trigger now =>
    injection h with h; subst h
    obtain ⟨p, hp⟩ := trigger_eq env s now
    rw [hp]; exact .refl _
  | getPeriode =>
    injection h with h; subst h
    exact .refl _
  | setCycle t =>
    injection h with h; subst h
    rw [setCycle_eq]; exact .refl _
  | validCb typ nr f =>
    injection h with h; subst h
    rcases setModCb_keeps env s typ nr (fun v tp => { v with validCb := upd v.validCb tp f }) with e | ⟨tp, e⟩ <;> rw [e] <;> exact .refl _
  | invalidCb typ nr f =>
    injection h with h; subst h
    rcases setModCb_keeps env s typ nr (fun v tp => { v with invalidCb := upd v.invalidCb tp f }) with e | ⟨tp, e⟩ <;> rw [e] <;> exact .refl _
  | reqCb typ nr f =>
    injection h with h; subst h
    rcases setModCb_keeps env s typ nr (fun v tp => { v with reqCb := upd v.reqCb tp f }) with e | ⟨tp, e⟩ <;> rw [e] <;> exact .refl _
  | timeCb f =>
    injection h with h; subst h
    unfold setTimeCb; split <;> exact .refl _
  | resetCb f =>
    injection h with h; subst h
    unfold setResetCb; split <;> exact .refl _
  | init baud =>
    injection h with h; subst h
    have hc := nodeInit_apps env s.node
    unfold Slave.init; simp only
    split <;> exact hc
  | table o => injection h with h; subst h; exact nodeStep_apps ..
  | _ => injection h with h; subst h; exact .refl _

end Slave
end LiCan
