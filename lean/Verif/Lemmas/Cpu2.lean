import Verif.Model.Cpu2
import Verif.Lemmas.NodeOps
/-! # The monitor CPU hands nothing to the driver -/
namespace LiCan
open Node Slave

/-- nothing was handed to the driver between `n` and `n'` -/
def Hush (n n' : Node) : Prop :=
  n'.sendN = n.sendN ∧ ∀ f ok, Ev.frame f ok ∈ n'.log → Ev.frame f ok ∈ n.log

namespace Hush
theorem refl (n : Node) : Hush n n := ⟨rfl, fun _ _ h => h⟩
theorem trans {a b c : Node} (h : Hush a b) (g : Hush b c) : Hush a c :=
  ⟨g.1.trans h.1, fun f ok k => h.2 f ok (g.2 f ok k)⟩
theorem same {n n' : Node} (h : n'.sendN = n.sendN) (g : n'.log = n.log) : Hush n n' := ⟨h, fun _ _ k => g ▸ k⟩

theorem thenOk {n : Node} {r : Node × Err} {f : Node → Node × Err} (h : Hush n r.1) (hf : ∀ n', Hush n' (f n').1) :
    Hush n (Node.thenOk r f).1 := by
  unfold Node.thenOk; split
  · exact h.trans (hf _)
  · exact h

theorem forErr {f : Nat → Node → Node × Err} (hf : ∀ i n, Hush n (f i n).1) :
    ∀ (l : List Nat) (n : Node), Hush n (Node.forErr f l n).1
  | [], n => refl n
  | i :: is, n => by unfold Node.forErr; exact thenOk (hf i n) (forErr hf is)

theorem forDo {f : Nat → Node → Node} (hf : ∀ i n, Hush n (f i n)) :
    ∀ (l : List Nat) (n : Node), Hush n (Node.forDo f l n)
  | [], n => refl n
  | i :: is, n => by unfold Node.forDo; exact (hf i n).trans (forDo hf is _)

theorem define (env : Env) (n : Node) (o : Nat) (d : ObjDef) : Hush n (Node.define env n o d).1 := by
  unfold Node.define; split
  · exact same rfl rfl
  · split <;> exact same rfl rfl

theorem addSlot (env : Env) (n : Node) (o tp : Nat) : Hush n (Node.addSlot env n o tp).1 := by
  unfold Node.addSlot; split <;> exact same rfl rfl

theorem callRx (env : Env) (n : Node) (c : Conv) (can : List Byte) (p d : Nat) :
    Hush n (Node.callRx env n c can p d).1 := by
  unfold Node.callRx; split <;> exact same rfl rfl

theorem syncOff (env : Env) (n : Node) (tp : Nat) : Hush n (Node.syncOff env n tp) := by
  unfold Node.syncOff
  refine (trans ?_ (forDo (fun i n => ?_) _ _))
  · refine (trans ?_ (forDo (fun i n => ?_) _ _))
    · refine trans ?_ (same rfl rfl : Hush _ _)
      refine (trans ?_ (forDo (fun i n => ?_) _ _))
      · exact same rfl rfl
      · exact same rfl rfl
    · exact same rfl rfl
  · exact callRx ..

theorem syncOn (n : Node) (tp : Nat) : Hush n (Node.syncOn n tp) := by
  unfold Node.syncOn
  refine (trans ?_ (forDo (fun i n => ?_) _ _))
  · refine trans ?_ (same rfl rfl : Hush _ _)
    refine (trans ?_ (forDo (fun i n => ?_) _ _))
    · exact same rfl rfl
    · exact same rfl rfl
  · exact same rfl rfl

theorem defineCtrl (env : Env) (n : Node) (k nr : Nat) : Hush n (Node.defineCtrl env n k nr).1 := by
  unfold Node.defineCtrl; split
  · exact refl n
  · split
    · exact refl n
    · exact trans (same rfl rfl) (define ..)

theorem setRx (env : Env) (n : Node) (tp nr : Nat) : Hush n (Node.setRx env n tp nr).1 := by
  unfold Node.setRx
  refine trans (same rfl rfl) (forErr (fun i n => ?_) _ _)
  unfold Node.setRx1
  dsimp only
  split
  · exact same rfl rfl
  · refine thenOk (trans (same rfl rfl) (define ..)) fun n' => addSlot ..

theorem renumRx (env : Env) (n : Node) (tp nr : Nat) : Hush n (Node.renumRx env n tp nr).1 :=
  forErr (fun _ _ => define ..) _ _

theorem report (env : Env) (n : Node) (e : Err) : Hush n (Node.report env n e) := by
  unfold Node.report; split <;> exact same rfl rfl

theorem txCnfg (env : Env) (n : Node) (tp o nr : Nat) : Hush n (Node.txCnfg env n tp o nr).1 := by
  unfold Node.txCnfg; split
  · exact refl n
  · split <;> exact same rfl rfl

theorem logged {n : Node} (e : Ev) (he : ∀ f ok, e ≠ .frame f ok) : Hush n { n with log := e :: n.log } :=
  ⟨rfl, fun f ok h => by
    rcases List.mem_cons.1 h with h | h
    · exact absurd h.symm (he f ok)
    · exact h⟩

theorem retx (env : Env) : ∀ (l : List Nat) (r : Node × Err), Hush r.1 (Node.retx env l r).1
  | [], r => refl _
  | j :: js, r => by
    unfold Node.retx; split
    · rename_i hs; clear hs
      refine trans ?_ (retx env js _)
      generalize List.range (r.1.rows j).txObj = l
      induction l generalizing r with
      | nil => exact refl _
      | cons i is ih => exact trans (txCnfg ..) (ih (Node.txCnfg env r.1 j i (r.1.rows j).nr))
    · exact retx env js r

theorem changeType (env : Env) (n : Node) (tp : Nat) (typ : List Byte) : Hush n (Node.changeType env n tp typ).1 := by
  unfold Node.changeType; split
  · exact refl n
  · split
    · dsimp only
      split
      · refine trans ?_ (logged _ (fun _ _ h => nomatch h))
        exact trans (same rfl rfl) (retx ..)
      · exact trans (same rfl rfl) (retx ..)
    · exact refl n

theorem changeTypeAdd (env : Env) (n : Node) (typ : List Byte) (tpl : Row) (rx tx : Nat → Nat) (cb : Bool) :
    Hush n (Node.changeTypeAdd env n typ tpl rx tx cb).1 := by
  unfold Node.changeTypeAdd; split <;> exact same rfl rfl

theorem init (env : Env) (n : Node) : Hush n (Node.init env n).1 := by
  unfold Node.init
  extract_lets hw0 n0 r1 r2 r3 r4
  refine thenOk ?_ fun _ => define ..
  refine thenOk ?_ fun _ => define ..
  refine thenOk ?_ fun n => ?_
  · refine thenOk ?_ fun _ => define ..
    exact trans (same rfl rfl) (define ..)
  · split
    · exact define ..
    · exact refl n

end Hush

namespace Cpu2

/-- nothing was handed to the driver between `c` and `c'` -/
abbrev Mute (c c' : Cpu2) : Prop := Hush c.s.node c'.s.node

theorem onNode_mute {f : Node → Node × Err} (hf : ∀ n, Hush n (f n).1) (c : Cpu2) : Mute c (c.onNode f).1 := hf _

theorem andThen_mute {c : Cpu2} {r : Cpu2 × Err} {f : Cpu2 → Cpu2 × Err} (h : Mute c r.1)
    (hf : ∀ c', Mute c' (f c').1) : Mute c (andThen r f).1 := by
  unfold andThen; split
  · exact Hush.trans h (hf _)
  · exact h

theorem loop_mute {f : Nat → Cpu2 → Cpu2 × Err} (hf : ∀ i c, Mute c (f i c).1) :
    ∀ (l : List Nat) (c : Cpu2), Mute c (loop f l c).1
  | [], c => .refl _
  | i :: is, c => by unfold loop; exact andThen_mute (hf i c) (loop_mute hf is)

theorem setSilentAwake_mute (env : Env) (c : Cpu2) (tp st : Nat) : Mute c (c.setSilentAwake env tp st).1 := by
  unfold setSilentAwake; split
  · dsimp only
    have h : Hush c.s.node { c.s.node with silent := upd c.s.node.silent tp st, log := .silentCb tp (c.s.node.rows tp).nr st :: c.s.node.log } :=
      ⟨rfl, fun f ok k => by
        rcases List.mem_cons.1 k with k | k
        · exact nomatch k
        · exact k⟩
    split
    · exact h.trans (Hush.syncOff ..)
    · split
      · exact h.trans (Hush.syncOn ..)
      · exact h
  · exact .refl _

theorem finish_mute (env : Env) (c : Cpu2) (tp idx nr : Nat) (nrs : List Nat) : Mute c (c.finish env tp idx nr nrs).1 := by
  unfold finish
  refine andThen_mute ?_ fun c => setSilentAwake_mute ..
  refine andThen_mute ?_ fun c => ?_
  · refine andThen_mute ?_ fun c => onNode_mute (fun n => Hush.define ..) c
    refine andThen_mute ?_ fun c => onNode_mute (fun n => Hush.define ..) c
    exact onNode_mute (fun n => Hush.defineCtrl ..) c
  · split
    · exact onNode_mute (fun n => Hush.define ..) c
    · exact .refl _

theorem count_mute {c c' : Cpu2} (h : Mute c c') (k : Nat) : Mute c (c'.setNode { c'.s.node with nrMod := k }) :=
  Hush.trans h (.same rfl rfl)

theorem setTx_mute (env : Env) (tp nr : Nat) (c : Cpu2) : Mute c (c.setTx env tp nr).1 := by
  refine loop_mute (fun i c => ?_) _ _
  unfold setTx1
  dsimp only
  split
  · exact .same rfl rfl
  · exact Hush.thenOk (Hush.trans (.same rfl rfl) (Hush.define ..)) fun n => Hush.addSlot ..

theorem setModule_mute (env : Env) (c : Cpu2) (tp : Nat) (tpl : Row) (x : Cpu2Row) (nr : Nat) (rx tx : Nat → Nat) :
    Mute c (c.setModule env tp tpl x nr rx tx).1 := by
  unfold setModule
  extract_lets nr' c0
  refine andThen_mute (Hush.trans ?_ (setTx_mute ..)) fun c => ?_
  · exact .same rfl rfl
  · refine andThen_mute (onNode_mute (fun n => Hush.setRx ..) c) fun c => ?_
    exact count_mute (finish_mute ..) _

theorem addModule_mute (env : Env) (c : Cpu2) (tpl : Row) (x : Cpu2Row) (nr : Nat) (rx tx : Nat → Nat) :
    Mute c (c.addModule env tpl x nr rx tx).1 := by
  unfold addModule; split
  · exact .refl _
  · split <;> exact Hush.trans (setModule_mute ..) (Hush.report ..)

theorem changeNr_mute (env : Env) (c : Cpu2) (typ : List Byte) (nr act : Nat) : Mute c (c.changeNr env typ nr act).1 := by
  unfold changeNr; split
  · exact .same rfl rfl
  · extract_lets c0
    refine andThen_mute (Hush.trans (b := c0.s.node) (.same rfl rfl) ?_) fun c => ?_
    · exact loop_mute (fun i c => onNode_mute (fun n => Hush.define ..) c) _ _
    · refine andThen_mute (onNode_mute (fun n => Hush.renumRx ..) c) fun c => finish_mute ..

theorem changeModuleNr_mute (env : Env) (c : Cpu2) (tp nr : Nat) : Mute c (c.changeModuleNr env tp nr).1 := by
  unfold changeModuleNr
  extract_lets r
  split
  · exact changeNr_mute ..
  · split
    · exact andThen_mute (changeNr_mute ..) fun c => setSilentAwake_mute ..
    · exact andThen_mute (changeNr_mute ..) fun c => setSilentAwake_mute ..
    · exact .refl _

theorem table_mute (env : Env) (c : Cpu2) (o : Op) : Mute c (c.table env o).1 := by
  cases o with
  | add tpl nr rx tx => exact addModule_mute ..
  | silentAwake tp st => exact setSilentAwake_mute ..
  | silentAwakeBy typ nr st =>
    show Mute c (c.setSilentAwakeBy env typ nr st).1
    unfold setSilentAwakeBy; split
    · exact setSilentAwake_mute ..
    · exact .refl _
  | setActive typ =>
    show Mute c (c.setActive env typ).1
    unfold setActive; split
    · exact Hush.syncOn ..
    · exact .refl _
  | setCritical typ =>
    show Mute c (c.setCritical env typ).1
    unfold setCritical; split
    · exact Hush.syncOff ..
    · exact .refl _
  | process => exact .refl _
  | changeNr typ nr act => exact changeNr_mute ..
  | changeModuleNr tp nr => exact changeModuleNr_mute ..
  | changeTypeAdd typ tpl rx tx cb => exact onNode_mute (fun n => Hush.changeTypeAdd ..) c
  | changeType tp typ => exact onNode_mute (fun n => Hush.changeType ..) c

theorem rxData_mute (env : Env) (c : Cpu2) (tp id dlc : Nat) (data : List Byte) : Mute c (c.rxData env tp id dlc data).1 := by
  unfold rxData
  extract_lets obj row
  split
  · exact .refl _
  · split
    · exact .refl _
    · split
      · exact Hush.callRx ..
      · exact Hush.callRx ..

theorem callOpt_hush (s : Slave) (f : Option Nat) : Hush s.node (s.callOpt f).node := by
  unfold Slave.callOpt; split
  · exact .refl _
  · exact Hush.logged _ (fun _ _ h => nomatch h)

theorem reqRx_hush (s : Slave) : Hush s.node (reqRx s).node := by
  unfold reqRx
  extract_lets v s1
  have h1 : Hush s.node s1.node := by
    show Hush _ (if _ then _ else _ : Slave).node
    split
    · exact .refl _
    · exact callOpt_hush { s with sync := { s.sync with first := true } } _
  refine h1.trans ?_
  generalize List.range s1.node.nrMod = l
  clear_value s1
  induction l generalizing s1 with
  | nil => exact .refl _
  | cons i is ih => exact (callOpt_hush s1 _).trans (ih _ (h1.trans (callOpt_hush s1 _)))

theorem checkStep_hush (now : Nat) (r : Slave × Bool) (i : Nat) : Hush r.1.node (checkStep now r i).1.node := by
  have hc : (checkModule r.1 now i).1.node = r.1.node := by unfold checkModule; split <;> rfl
  unfold checkStep
  extract_lets c
  have hc : c.1.node = r.1.node := hc
  split
  · refine Hush.trans ?_ (callOpt_hush { c.1 with sync := { c.1.sync with valid := upd c.1.sync.valid i false } } _)
    rw [← hc]; exact .refl _
  · refine Hush.trans ?_ (callOpt_hush { c.1 with sync := { c.1.sync with valid := upd c.1.sync.valid i true } } _)
    rw [← hc]; exact .refl _

theorem checks_hush (now : Nat) : ∀ (l : List Nat) (r : Slave × Bool), Hush r.1.node (l.foldl (checkStep now) r).1.node
  | [], r => .refl _
  | i :: is, r => (checkStep_hush now r i).trans (checks_hush now is _)

theorem checkImage_hush (env : Env) (s : Slave) (now : Nat) : Hush s.node (checkImage env s now).node := by
  unfold checkImage; split
  · split
    · exact .refl _
    · split
      · exact .refl _
      · extract_lets r
        have h : Hush s.node r.1.node := checks_hush now _ (s, true)
        split
        · exact h.trans (callOpt_hush { r.1 with sync := { r.1.sync with timeValid := now } } _)
        · exact h
  · exact .refl _

theorem dropOneError_hush (env : Env) (n : Node) : Hush n (dropOneError env n).1 := .same rfl rfl

theorem drain_hush (env : Env) (k : Nat) : ∀ (r r' : Node × Err), drain env k r = some r' → Hush r.1 r'.1 := by
  induction k with
  | zero =>
    intro r r' h
    unfold drain at h
    split at h
    · cases h; exact .refl _
    · cases h
  | succ k ih =>
    intro r r' h
    unfold drain at h
    split at h
    · cases h; exact .refl _
    · exact (dropOneError_hush env r.1).trans (ih _ _ h)

theorem processRequest_mute (env : Env) (c : Cpu2) (now dlc : Nat) : Mute c (c.processRequest env now dlc) := by
  unfold processRequest
  extract_lets s
  have h : Hush c.s.node s.node := (reqRx_hush c.s).trans (checkImage_hush env _ now)
  split
  · exact h.trans (dropOneError_hush ..)
  · exact h

theorem statusRequest_hush (env : Env) (s : Slave) : Hush s.node (statusRequest env s).node := by
  unfold statusRequest
  extract_lets v s1 r
  have h1 : Hush s.node s1.node := by
    show Hush _ (if _ then _ else _ : Slave).node
    split
    · exact .refl _
    · exact callOpt_hush { s with sys := { s.sys with first := true } } _
  split
  · exact h1.trans (Hush.logged _ (fun _ _ h => nomatch h))
  · exact h1

theorem sysSilentAwake_mute (env : Env) (c : Cpu2) (src : List Byte) (nr st : Nat) :
    Mute c (c.sysSilentAwake env src nr st).1 := by
  unfold sysSilentAwake; split
  · split
    · split
      · exact setSilentAwake_mute ..
      · exact .refl _
    · exact .refl _
  · exact .refl _

theorem sysMsg_mute (env : Env) (c : Cpu2) (nr dlc : Nat) (src : List Byte) (r : Cpu2 × Err)
    (h : c.sysMsg env nr dlc src = some r) : Mute c r.1 := by
  unfold sysMsg at h
  split at h
  · cases h; exact .refl _
  extract_lets s dst s1 rb t z nd at h
  clear_value dst
  split at h
  · cases h; exact .refl _
  split at h
  · cases h; exact .refl _
  split at h
  · have h1 : Hush c.s.node s1.node := statusRequest_hush env _
    split at h
    · rcases hd : drain env s1.node.errq.count (s1.node, E.ok) with _ | x
      · rw [hd] at h; cases h
      · rw [hd] at h
        rw [← Option.some.inj h]
        exact h1.trans (drain_hush env _ _ _ hd)
    · rw [← Option.some.inj h]; exact h1
  · split at h
    · cases h; exact .refl _
    · rw [← Option.some.inj h]; exact .refl _
  · cases h; exact .refl _
  · cases h; exact .refl _
  · split at h
    · rw [← Option.some.inj h]; exact Hush.logged _ (fun _ _ h => nomatch h)
    · cases h; exact .refl _
  · rw [← Option.some.inj h]
    show Hush _ (setCycle env c.s (at8 src 2)).1.node
    unfold setCycle; split <;> exact .refl _
  · cases h; exact .refl _
  · cases h; exact .refl _
  · split at h
    · cases h; exact .refl _
    · split at h
      · rw [← Option.some.inj h]; exact changeModuleNr_mute ..
      · cases h; exact .refl _
  · split at h
    · cases h; exact .refl _
    · rw [← Option.some.inj h]; exact sysSilentAwake_mute ..
  · split at h
    · cases h; exact .refl _
    · rw [← Option.some.inj h]; exact sysSilentAwake_mute ..
  · cases h; exact .refl _
  · split at h
    · rw [← Option.some.inj h]; exact Hush.logged _ (fun _ _ h => nomatch h)
    · cases h; exact .refl _
  · split at h
    · cases h; exact .refl _
    · split at h
      · rw [← Option.some.inj h]; exact Hush.changeType ..
      · cases h; exact .refl _
  · cases h; exact .refl _

theorem handlerRx_mute (env : Env) (c c' : Cpu2) (now obj dlc id : Nat) (data : List Byte)
    (h : c.handlerRx env now obj dlc id data = some c') : Mute c c' := by
  unfold handlerRx at h
  extract_lets c1 c2 at h
  have h1 : Mute c c1 := by
    show Hush _ (if _ then _ else _ : Cpu2).s.node
    split
    · split
      · exact rxData_mute ..
      · exact .refl _
    · exact .refl _
  have h2 : Mute c c2 := by
    refine Hush.trans h1 ?_
    show Hush _ (if _ then _ else _ : Cpu2).s.node
    split
    · exact processRequest_mute ..
    · exact .refl _
  split at h
  · rcases hs : c2.sysMsg env (sysNrOfId id) dlc data with _ | r
    · rw [hs] at h; cases h
    · rw [hs] at h
      rw [← Option.some.inj h]
      exact (Hush.trans h2 (sysMsg_mute env c2 _ _ _ r hs)).trans (Hush.report ..)
  · rw [← Option.some.inj h]; exact h2

theorem init_node (env : Env) (s : Slave) (b : Nat) : (Slave.init env s b).1.node = (Node.init env s.node).1 := by
  unfold Slave.init
  generalize Node.init env s.node = r
  dsimp only
  split <;> rfl

theorem step_mute (env : Env) (c c' : Cpu2) (i : CIn) (h : c.step env i = some c') : Mute c c' := by
  cases i with
  | api i =>
    cases i with
    | frame now obj dlc id data => exact handlerRx_mute env c c' _ _ _ _ _ h
    | table o => simp only [step, Option.some.injEq] at h; subst h; exact table_mute ..
    | init baud =>
      simp only [step, Slave.step, Option.map_some, Option.some.injEq] at h; subst h
      show Hush _ (Slave.init env c.s baud).1.node
      rw [init_node]; exact Hush.init ..
    | trigger now =>
      simp only [step, Slave.step, Option.map_some, Option.some.injEq] at h; subst h
      show Hush _ (Slave.trigger env c.s now).node
      unfold Slave.trigger
      extract_lets a b d
      split <;> exact .refl _
    | setCycle t =>
      simp only [step, Slave.step, Option.map_some, Option.some.injEq] at h; subst h
      show Hush _ (Slave.setCycle env c.s t).1.node
      unfold setCycle; split <;> exact .refl _
    | validCb typ nr f =>
      simp only [step, Slave.step, Option.map_some, Option.some.injEq] at h; subst h
      show Hush _ (setModCb env c.s typ nr _).1.node
      unfold setModCb; split <;> exact .refl _
    | invalidCb typ nr f =>
      simp only [step, Slave.step, Option.map_some, Option.some.injEq] at h; subst h
      show Hush _ (setModCb env c.s typ nr _).1.node
      unfold setModCb; split <;> exact .refl _
    | reqCb typ nr f =>
      simp only [step, Slave.step, Option.map_some, Option.some.injEq] at h; subst h
      show Hush _ (setModCb env c.s typ nr _).1.node
      unfold setModCb; split <;> exact .refl _
    | timeCb f =>
      simp only [step, Slave.step, Option.map_some, Option.some.injEq] at h; subst h
      show Hush _ (setTimeCb c.s f).node
      unfold setTimeCb; split <;> exact .refl _
    | resetCb f =>
      simp only [step, Slave.step, Option.map_some, Option.some.injEq] at h; subst h
      show Hush _ (setResetCb c.s f).node
      unfold setResetCb; split <;> exact .refl _
    | getPeriode | setMode m | setBaud b | allCb f | firstCb f | firstStatusCb f =>
      simp only [step, Slave.step, Option.map_some, Option.some.injEq] at h; subst h; exact Hush.same rfl rfl
  | add tpl x nr rx tx => simp only [step, Option.some.injEq] at h; subst h; exact addModule_mute ..
  | process now bus lec =>
    simp only [step, Option.some.injEq] at h; subst h
    show Hush _ (Slave.trigger env c.s now).node
    unfold Slave.trigger
    extract_lets a b d
    split <;> exact .refl _
  | start => simp only [step, Option.some.injEq] at h; subst h; exact .refl _

theorem run_mute (env : Env) : ∀ (is : List CIn) (c c' : Cpu2), run env c is = some c' → Mute c c'
  | [], c, c', h => by rw [← Option.some.inj h]; exact .refl _
  | i :: is, c, c', h => by
    rcases hs : step env c i with _ | c1
    · simp [run, hs] at h
    · simp only [run, hs, Option.bind_some] at h
      exact Hush.trans (step_mute env c c1 i hs) (run_mute env is c1 c' h)

end Cpu2
end LiCan
