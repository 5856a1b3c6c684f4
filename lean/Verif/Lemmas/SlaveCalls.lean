import Verif.Lemmas.SlaveEff
import Verif.Lemmas.NodeHw
/-! # The application calls made by every step -/
namespace LiCan
open Node
namespace Slave

/-- the argument-less application functions called, latest first -/
def appCalls (l : List Ev) : List Nat := l.filterMap fun e => match e with
  | .call f => some f
  | _ => none

theorem appCalls_append (a b : List Ev) : appCalls (a ++ b) = appCalls a ++ appCalls b := List.filterMap_append ..

theorem appCalls_frames {l : List Ev} (h : OnlyFrames l) : appCalls l = [] := by
  simp only [appCalls, List.filterMap_eq_nil_iff]
  intro e he
  obtain ⟨f, ok, rfl⟩ := h e he
  rfl

theorem appCalls_calls (f : Option Nat) : appCalls (calls f) = f.toList := by cases f <;> rfl

theorem appCalls_flatMap_calls (l : List Nat) (f : Nat → Option Nat) :
    appCalls (l.flatMap fun i => calls (f i)) = l.filterMap f := by
  induction l with
  | nil => rfl
  | cons a l ih =>
    rw [List.flatMap_cons, appCalls_append, ih, appCalls_calls, List.filterMap_cons]
    cases f a <;> rfl

/-- same application calls -/
def SameCalls (n n' : Node) : Prop := appCalls n'.log = appCalls n.log

theorem SameCalls.refl (n : Node) : SameCalls n n := rfl
theorem SameCalls.trans {a b c : Node} (h : SameCalls a b) (g : SameCalls b c) : SameCalls a c :=
  Eq.trans (b := appCalls b.log) g h
theorem SameCalls.of_log {n n' : Node} (h : n'.log = n.log) : SameCalls n n' := by unfold SameCalls; rw [h]
theorem SameCalls.thenOk {n : Node} {r : Node × Err} {f : Node → Node × Err} (h : SameCalls n r.1)
    (hf : ∀ n, SameCalls n (f n).1) : SameCalls n (Node.thenOk r f).1 := by
  unfold Node.thenOk; split
  · exact h.trans (hf _)
  · exact h
theorem SameCalls.forErr {f : Nat → Node → Node × Err} (hf : ∀ i n, SameCalls n (f i n).1) (is : List Nat) :
    ∀ n, SameCalls n (Node.forErr f is n).1 := by
  induction is with
  | nil => intro n; exact .refl n
  | cons i is ih => intro n; exact (hf i n).thenOk ih

theorem SentOnly.calls {n n' : Node} (h : SentOnly n n') : SameCalls n n' := by
  obtain ⟨l, e, o⟩ := h.log
  unfold SameCalls; rw [e, appCalls_append, appCalls_frames o]; rfl

theorem define_calls (env : Env) (n : Node) (o : Nat) (d : ObjDef) : SameCalls n (define env n o d).1 := by
  obtain ⟨hw, u, e⟩ := define_eq env n o d
  rw [e]; exact .of_log rfl

theorem report_calls (env : Env) (n : Node) (e : Err) : SameCalls n (report env n e) := .of_log (report_log ..)

theorem txCnfg_calls (env : Env) (n : Node) (tp obj nr : Nat) : SameCalls n (txCnfg env n tp obj nr).1 := by
  unfold txCnfg; split
  · exact .refl _
  · split
    · exact .refl _
    · exact .of_log rfl

theorem syncOn_calls (n : Node) (tp : Nat) : SameCalls n (syncOn n tp) := by
  rw [syncOn_eq]; exact .of_log rfl

theorem syncOff_calls (env : Env) (n : Node) (tp : Nat) : SameCalls n (syncOff env n tp) := by
  obtain ⟨m, u, e⟩ := syncOff_eq env n tp
  rw [e]; exact .of_log rfl

theorem setSilentAwake_calls (env : Env) (n : Node) (tp st : Nat) : SameCalls n (setSilentAwake env n tp st).1 := by
  unfold setSilentAwake
  have h0 : SameCalls n { n with silent := upd n.silent tp st
                                 log := .silentCb tp (n.rows tp).nr st :: n.log } := rfl
  split
  · simp only
    split
    · exact h0.trans (syncOff_calls ..)
    · split
      · exact h0.trans (syncOn_calls ..)
      · exact h0
  · exact .refl n

theorem defineCtrl_calls (env : Env) (n : Node) (idx nr : Nat) : SameCalls n (defineCtrl env n idx nr).1 := by
  unfold defineCtrl
  split
  · exact .refl _
  · split
    · exact .refl _
    · next o _ => exact SameCalls.trans (b := { n with ctrlObj := upd n.ctrlObj idx o }) (.of_log rfl) (define_calls ..)

theorem finish_calls (env : Env) (n : Node) (tp idx nr : Nat) (nrs : List Nat) : SameCalls n (finish env n tp idx nr nrs).1 := by
  unfold finish
  simp only
  refine ((((defineCtrl_calls ..).thenOk fun n => define_calls ..).thenOk fun n => define_calls ..).thenOk ?_).thenOk
    fun n => setSilentAwake_calls ..
  intro n; split
  · exact define_calls ..
  · exact .refl _

theorem setRx1_calls (env : Env) (tp nr i : Nat) (n : Node) : SameCalls n (setRx1 env tp nr i n).1 := by
  unfold setRx1
  simp only
  split
  · exact .of_log rfl
  · refine SameCalls.thenOk ?_ ?_
    · refine SameCalls.trans ?_ (define_calls ..)
      exact .of_log rfl
    · intro n; unfold addSlot; split
      · exact .of_log rfl
      · exact .refl _

theorem setModule_calls (env : Env) (n : Node) (tp : Nat) (tpl : Row) (nr : Nat) (rx tx : Nat → Nat) :
    SameCalls n (setModule env n tp tpl nr rx tx).1 := by
  unfold setModule
  simp only
  refine SameCalls.thenOk ?_ fun n => SameCalls.thenOk ?_ fun n => ?_
  · unfold setTx
    refine SameCalls.trans (b := n.fillRow tp tpl (effNr tp nr) rx tx) (.of_log rfl) (.forErr ?_ _ _)
    intro i n
    refine SameCalls.trans ?_ (txCnfg_calls ..)
    exact .of_log rfl
  · unfold setRx
    simp only
    refine SameCalls.trans ?_ (.forErr (setRx1_calls env tp (effNr tp nr)) _ _)
    exact .of_log rfl
  · have := finish_calls env n tp n.nrMod (effNr tp nr) ((List.range (tp + 1)).map fun i => (n.rows i).nr)
    generalize finish env n tp n.nrMod (effNr tp nr) ((List.range (tp + 1)).map fun i => (n.rows i).nr) = r at *
    exact this

theorem addModule_calls (env : Env) (n : Node) (tpl : Row) (nr : Nat) (rx tx : Nat → Nat) :
    SameCalls n (addModule env n tpl nr rx tx).1 := by
  unfold addModule
  split
  · exact .refl _
  · split
    · exact (setModule_calls ..).trans (report_calls ..)
    · exact (setModule_calls ..).trans (report_calls ..)

theorem changeNr_calls (env : Env) (n : Node) (typ : List Byte) (nr act : Nat) : SameCalls n (changeNr env n typ nr act).1 := by
  unfold changeNr
  split
  · exact .of_log rfl
  · next tp _ =>
    simp only
    refine SameCalls.thenOk ?_ fun n => SameCalls.thenOk ?_ fun n => finish_calls ..
    · unfold renumTx
      refine SameCalls.trans (b := n.setRow tp fun r => { r with nr := nr }) (.of_log rfl) (.forErr ?_ _ _)
      intro i n; exact txCnfg_calls ..
    · unfold renumRx
      refine .forErr ?_ _ _
      intro i n; exact define_calls ..

theorem changeModuleNr_calls (env : Env) (n : Node) (tp nr : Nat) : SameCalls n (changeModuleNr env n tp nr).1 := by
  unfold changeModuleNr
  simp only
  split
  · exact changeNr_calls ..
  · split
    · exact (changeNr_calls ..).thenOk fun n => setSilentAwake_calls ..
    · exact (changeNr_calls ..).thenOk fun n => setSilentAwake_calls ..
    · exact .refl _

theorem retx_calls (env : Env) (js : List Nat) : ∀ r : Node × Err, SameCalls r.1 (retx env js r).1 := by
  have inner : ∀ (j : Nat) (is : List Nat) (r : Node × Err),
      SameCalls r.1 (is.foldl (fun r i => txCnfg env r.1 j i (r.1.rows j).nr) r).1 := by
    intro j is
    induction is with
    | nil => intro r; exact .refl _
    | cons i is ih => intro r; exact (txCnfg_calls ..).trans (ih _)
  induction js with
  | nil => intro r; exact .refl _
  | cons j js ih =>
    intro r
    unfold retx
    split
    · exact (inner _ _ _).trans (ih _)
    · exact ih _

theorem changeType_calls (env : Env) (n : Node) (tp : Nat) (typ : List Byte) : SameCalls n (changeType env n tp typ).1 := by
  unfold changeType
  split
  · exact .refl _
  · split
    · simp only
      generalize hm : ({ n.setRow tp _ with tx := _ } : Node) = m
      have h0 : SameCalls n m := by rw [← hm]; exact .of_log rfl
      have h1 := fun js => h0.trans (retx_calls env js (m, E.ok))
      split
      · exact h1 _
      · exact h1 _
    · exact .refl _

theorem nodeStep_calls (env : Env) (n : Node) (o : Op) : SameCalls n (Node.step env n o).1 := by
  cases o with
  | add tpl nr rx tx => exact addModule_calls ..
  | silentAwake tp st => exact setSilentAwake_calls ..
  | silentAwakeBy typ nr st =>
    show SameCalls n (setSilentAwakeBy env n typ nr st).1
    unfold setSilentAwakeBy; split
    · exact setSilentAwake_calls ..
    · exact .refl _
  | setActive typ =>
    show SameCalls n (setActive env n typ).1
    unfold setActive; split
    · exact syncOn_calls ..
    · exact .refl _
  | setCritical typ =>
    show SameCalls n (setCritical env n typ).1
    unfold setCritical; split
    · exact syncOff_calls ..
    · exact .refl _
  | process =>
    show SameCalls n ((sendProcessData env n).getD n)
    cases h : sendProcessData env n with
    | none => exact .refl _
    | some n' => exact SentOnly.calls ⟨.sendProcess h, sendProcess_log h⟩
  | changeNr typ nr act => exact changeNr_calls ..
  | changeModuleNr tp nr => exact changeModuleNr_calls ..
  | changeTypeAdd typ tpl rx tx cb =>
    show SameCalls n (changeTypeAdd env n typ tpl rx tx cb).1
    unfold changeTypeAdd; split
    · exact .of_log rfl
    · exact .refl _
  | changeType tp typ => exact changeType_calls ..

theorem nodeInit_calls (env : Env) (n : Node) : SameCalls n (Node.init env n).1 := by
  unfold Node.init
  simp only
  refine (((SameCalls.thenOk ?_ fun n => define_calls ..).thenOk ?_).thenOk fun n => define_calls ..).thenOk
    fun n => define_calls ..
  · refine SameCalls.trans ?_ (define_calls ..)
    exact .of_log rfl
  · intro n; split
    · exact define_calls ..
    · exact .refl _

/-- the calls of a system message: only the first-status callback -/
theorem SysEff.calls {env : Env} {s s' : Slave} {src : List Byte} (h : SysEff env s src s') :
    appCalls s'.node.log = (if at8 src 0 = 1 ∧ s'.sys.first = true ∧ s.sys.first = false then s.sys.firstCb.toList else [])
      ++ appCalls s.node.log ∧
    s'.sys.firstCb = s.sys.firstCb ∧ (s.sys.first = true → s'.sys.first = true) ∧
    (at8 src 0 ≠ 1 → s'.sys.first = s.sys.first) ∧
    (s'.sync.first = s.sync.first ∧ s'.sync.firstCb = s.sync.firstCb ∧ s'.sync.allCb = s.sync.allCb ∧
      s'.sync.validCb = s.sync.validCb ∧ s'.sync.invalidCb = s.sync.invalidCb ∧ s'.sync.reqCb = s.sync.reqCb) := by
  have sy : (s.sync.first = s.sync.first ∧ s.sync.firstCb = s.sync.firstCb ∧ s.sync.allCb = s.sync.allCb ∧
      s.sync.validCb = s.sync.validCb ∧ s.sync.invalidCb = s.sync.invalidCb ∧ s.sync.reqCb = s.sync.reqCb) :=
    ⟨rfl, rfl, rfl, rfl, rfl, rfl⟩
  have nof : ∀ c : Nat, c ≠ 1 → at8 src 0 = c → ∀ b : Bool, ¬ (at8 src 0 = 1 ∧ b = true ∧ s.sys.first = false) := by
    rintro c hc e b ⟨h, _⟩; omega
  cases h with
  | none =>
    refine ⟨?_, rfl, id, fun _ => rfl, sy⟩
    rw [if_neg (by rintro ⟨_, a, b⟩; rw [a] at b; cases b)]; rfl
  | status h n hn =>
    refine ⟨?_, rfl, fun _ => rfl, fun h' => absurd h h', sy⟩
    have := hn.calls
    unfold SameCalls at this
    show appCalls n.log = _
    rw [this]
    simp only [statusHead, h, true_and]
    rw [appCalls_append, appCalls_append]
    have e1 : appCalls (if env.randAck = true then [Ev.wait (rand s.sys.rand).2] else []) = [] := by split <;> rfl
    rw [e1, List.nil_append]
    cases s.sys.first
    · simp only [Bool.false_eq_true, if_false, if_true, appCalls_calls]
    · rfl
  | baud h =>
    refine ⟨?_, rfl, id, fun _ => rfl, sy⟩
    rw [if_neg (nof 2 (by decide) h _)]; rfl
  | version h n hn =>
    refine ⟨?_, rfl, id, fun _ => rfl, sy⟩
    rw [if_neg (nof 5 (by decide) h _)]; exact hn.calls
  | time h f t z d hf =>
    refine ⟨?_, rfl, id, fun _ => rfl, sy⟩
    rw [if_neg (nof 7 (by decide) h _)]; rfl
  | cycle h =>
    have e : ∃ c, (setCycle env s (at8 src 2)).1 = { s with sync := { s.sync with cycle := c } } := by
      unfold setCycle; split <;> exact ⟨_, rfl⟩
    obtain ⟨c, e⟩ := e
    rw [e]
    refine ⟨?_, rfl, id, fun _ => rfl, sy⟩
    rw [if_neg (nof 8 (by decide) h _)]; rfl
  | number h hs tp =>
    refine ⟨?_, rfl, id, fun _ => rfl, sy⟩
    rw [if_neg (nof 0x20 (by decide) h _)]; exact changeModuleNr_calls ..
  | silent h hs tp htp st hst =>
    refine ⟨?_, rfl, id, fun _ => rfl, sy⟩
    rw [if_neg (by rcases h with h | h <;> rw [h] <;> simp)]; exact setSilentAwake_calls ..
  | reset h f b hf =>
    refine ⟨?_, rfl, id, fun _ => rfl, sy⟩
    rw [if_neg (nof 0x30 (by decide) h _)]; rfl
  | type h hs tp =>
    refine ⟨?_, rfl, id, fun _ => rfl, sy⟩
    rw [if_neg (nof 0x31 (by decide) h _)]; exact changeType_calls ..

/-- the calls of a process request -/
theorem request_calls {env : Env} {s s' : Slave} {now dlc : Nat} (hi : ReqInv s)
    (h : processRequest env s now dlc = some s') :
    (∃ img, appCalls s'.node.log = img ++ ((if s.sync.first then [] else s.sync.firstCb.toList) ++
        (List.range s.node.nrMod).filterMap s.sync.reqCb).reverse ++ appCalls s.node.log ∧
      ∀ f ∈ img, s.sync.allCb = some f ∨ ∃ i, s.sync.validCb i = some f ∨ s.sync.invalidCb i = some f) ∧
    s'.sync.first = true ∧ s'.sync.firstCb = s.sync.firstCb ∧ s'.sync.allCb = s.sync.allCb ∧
    s'.sync.validCb = s.sync.validCb ∧ s'.sync.invalidCb = s.sync.invalidCb ∧ s'.sync.reqCb = s.sync.reqCb ∧
    s'.sys = s.sys := by
  obtain ⟨l, h1, h2, h3, fr, h4, h5⟩ := processRequest_spec h
  have k := checkImage_keeps env (reqRx s) now hi.reqRx
  simp only at k
  obtain ⟨-, -, -, k1, k2, -, -, k3, k4, k5, k6, k7, k8, -, -, -⟩ := k
  have rq := reqRx_eq s
  have img : ∃ img, appCalls (checkImage env (reqRx s) now).node.log = img ++ appCalls (reqRx s).node.log ∧
      ∀ f ∈ img, s.sync.allCb = some f ∨ ∃ i, s.sync.validCb i = some f ∨ s.sync.invalidCb i = some f := by
    rcases checkImage_cases env (reqRx s) now hi.reqRx with ⟨-, e⟩ | ⟨-, -, e⟩ | ⟨c1, c2, c3⟩
    · rw [e]; exact ⟨[], rfl, by simp⟩
    · rw [e]; exact ⟨[], rfl, by simp⟩
    · obtain ⟨v, mt, er, e, -⟩ := checkImage_eval env (reqRx s) now c1 c2 c3
      rw [e]
      refine ⟨appCalls (imageEvs (reqRx s)).reverse, appCalls_append _ _, ?_⟩
      intro f hf
      simp only [appCalls, List.mem_filterMap, List.mem_reverse] at hf
      obtain ⟨ev, he, hf⟩ := hf
      have hev : ev = .call f := by cases ev <;> simp at hf; rw [hf]
      subst hev
      unfold imageEvs at he
      rcases List.mem_append.1 he with he | he
      · simp only [List.mem_flatMap] at he
        obtain ⟨i, _, he⟩ := he
        right
        refine ⟨i, ?_⟩
        have e0 : (reqRx s).sync.validCb = s.sync.validCb ∧ (reqRx s).sync.invalidCb = s.sync.invalidCb := by
          rw [rq]; exact ⟨rfl, rfl⟩
        simp only [modEvs, e0.1, e0.2] at he
        split at he
        · left
          cases hv : s.sync.validCb i with
          | none => rw [hv] at he; simp [Slave.calls] at he
          | some g => rw [hv] at he; simp [Slave.calls] at he; rw [he]
        · right
          cases hv : s.sync.invalidCb i with
          | none => rw [hv] at he; simp [Slave.calls] at he
          | some g => rw [hv] at he; simp [Slave.calls] at he; rw [he]
      · left
        have e0 : (reqRx s).sync.allCb = s.sync.allCb := by rw [rq]
        rw [e0] at he
        split at he
        · cases hv : s.sync.allCb with
          | none => rw [hv] at he; simp [Slave.calls] at he
          | some g => rw [hv] at he; simp [Slave.calls] at he; rw [he]
        · cases he
  obtain ⟨img, e1, e2⟩ := img
  refine ⟨⟨img, ?_, e2⟩, ?_, ?_, ?_, ?_, ?_, ?_, ?_⟩
  · rw [h4, appCalls_append, appCalls_frames h5, List.nil_append, e1, List.append_assoc]
    congr 1
    rw [rq]
    show appCalls ((reqEvs s).reverse ++ s.node.log) = _
    rw [appCalls_append]
    congr 1
    have hrev : ∀ l : List Ev, appCalls l.reverse = (appCalls l).reverse := fun l => by
      simp [appCalls, List.filterMap_reverse]
    rw [hrev]
    congr 1
    unfold reqEvs
    rw [appCalls_append, appCalls_flatMap_calls]
    congr 1
    split
    · rfl
    · exact appCalls_calls _
  · rw [h3]; show (checkImage env (reqRx s) now).sync.first = true; rw [k3, rq]
  · rw [h3]; show (checkImage env (reqRx s) now).sync.firstCb = _; rw [k4, rq]
  · rw [h3]; show (checkImage env (reqRx s) now).sync.allCb = _; rw [k6, rq]
  · rw [h3]; show (checkImage env (reqRx s) now).sync.validCb = _; rw [k7, rq]
  · rw [h3]; show (checkImage env (reqRx s) now).sync.invalidCb = _; rw [k8, rq]
  · rw [h3]; show (checkImage env (reqRx s) now).sync.reqCb = _; rw [k5, rq]
  · rw [h2, k2, rq]

end Slave
end LiCan
