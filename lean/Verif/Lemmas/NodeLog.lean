import Verif.Lemmas.MonSafe
/-! # The log of effects is only appended to and never read -/
namespace LiCan
namespace Node

/-- the same node with older entries in the log -/
def prep (l : List Ev) (n : Node) : Node := { n with log := n.log ++ l }

/-- a function that does not read the log -/
def Pre {α : Type} (f : Node → Node × α) : Prop := ∀ l n, f (prep l n) = (prep l (f n).1, (f n).2)
def PreN (f : Node → Node) : Prop := ∀ l n, f (prep l n) = prep l (f n)

theorem Pre.ret {α : Type} (a : α) : Pre fun n => (n, a) := fun _ _ => rfl

theorem Pre.thenOk {f g : Node → Node × Err} (hf : Pre f) (hg : Pre g) : Pre fun n => Node.thenOk (f n) g := by
  intro l n
  unfold Node.thenOk
  dsimp only
  rw [hf l n]
  dsimp only
  split
  · exact hg ..
  · rfl

theorem Pre.forErr {f : Nat → Node → Node × Err} (hf : ∀ i, Pre (f i)) (is : List Nat) : Pre (Node.forErr f is) := by
  induction is with
  | nil => exact Pre.ret _
  | cons i is ih => exact Pre.thenOk (hf i) ih

theorem PreN.forDo {f : Nat → Node → Node} (hf : ∀ i, PreN (f i)) (is : List Nat) : PreN (Node.forDo f is) := by
  induction is with
  | nil => exact fun _ _ => rfl
  | cons i is ih =>
    intro l n
    show Node.forDo f is (f i (prep l n)) = prep l (Node.forDo f is (f i n))
    rw [hf i l n, ih]

theorem setRow_pre (tp : Nat) (f : Row → Row) : PreN fun n => n.setRow tp f := fun _ _ => rfl

theorem report_pre (env : Env) (e : Err) : PreN fun n => report env n e := by
  intro l n
  dsimp only
  unfold report
  split
  · rfl
  · rfl

theorem send_pre (env : Env) (f : Frame) : Pre fun n => send env n f := fun _ _ => rfl

theorem define_pre (env : Env) (o : Nat) (d : ObjDef) : Pre fun n => define env n o d := by
  intro l n
  dsimp only
  unfold define
  split
  · rfl
  · have e : (prep l n).hw = n.hw := rfl
    dsimp only
    rw [e]
    split
    · rfl
    · rfl

theorem addSlot_pre (env : Env) (o tp : Nat) : Pre fun n => addSlot env n o tp := by
  intro l n
  dsimp only
  unfold addSlot
  have e : (prep l n).slots = n.slots := rfl
  rw [e]
  split
  · rfl
  · rfl

theorem txCnfg_pre (env : Env) (tp obj nr : Nat) : Pre fun n => txCnfg env n tp obj nr := by
  intro l n
  dsimp only
  unfold txCnfg
  split
  · rfl
  · split
    · rfl
    · rfl

theorem callRx_pre (env : Env) (c : Conv) (can : List Byte) (ptr dlc : Nat) : Pre fun n => callRx env n c can ptr dlc := by
  intro l n
  cases c <;> rfl

theorem syncOff_pre (env : Env) (tp : Nat) : PreN fun n => syncOff env n tp := by
  intro l n
  dsimp only
  unfold syncOff
  dsimp only
  have h1 : ∀ i, PreN fun n : Node => (n.txOff tp i).setRow tp fun r =>
    { r with txDlcSync := upd r.txDlcSync i 0, txMainSync := upd r.txMainSync i .dummy } := fun _ _ _ => rfl
  have h2 : ∀ i, PreN fun n : Node => n.setRow tp fun r =>
    { r with rxDlcSync := upd r.rxDlcSync i 0, rxMainSync := upd r.rxMainSync i .dummy } := fun _ _ _ => rfl
  have h3 : ∀ i, PreN fun n : Node => (n.callRx env ((n.rows tp).rxMain i) zeros8 ((n.rows tp).rx i) ((n.rows tp).rxDlc i)).1 := by
    intro i l n
    dsimp only
    exact congrArg Prod.fst (callRx_pre env _ _ _ _ l n)
  have a : ∀ f l n, (prep l n).setRow tp f = prep l (n.setRow tp f) := fun _ _ _ => rfl
  have r : ∀ l n, (prep l n).rows = n.rows := fun _ _ => rfl
  rw [a, r, PreN.forDo h1, a, r, PreN.forDo h2, r, PreN.forDo h3]

theorem syncOn_pre (tp : Nat) : PreN fun n => syncOn n tp := by
  intro l n
  dsimp only
  unfold syncOn
  dsimp only
  have h1 : ∀ i, PreN fun n : Node => (n.txOn tp i).setRow tp fun r =>
    { r with txDlcSync := upd r.txDlcSync i (r.txDlc i)
             txMainSync := upd r.txMainSync i (r.txMain i) } := fun _ _ _ => rfl
  have h2 : ∀ i, PreN fun n : Node => n.setRow tp fun r =>
    { r with rxDlcSync := upd r.rxDlcSync i (r.rxDlc i)
             rxMainSync := upd r.rxMainSync i (r.rxMain i) } := fun _ _ _ => rfl
  have a : ∀ f l n, (prep l n).setRow tp f = prep l (n.setRow tp f) := fun _ _ _ => rfl
  have r : ∀ l n, (prep l n).rows = n.rows := fun _ _ => rfl
  rw [a, r, PreN.forDo h1, a, r, PreN.forDo h2]

/-- the state before the objects are switched -/
def mark (n : Node) (tp st : Nat) : Node :=
  { n with silent := upd n.silent tp st, log := .silentCb tp (n.rows tp).nr st :: n.log }

theorem setSilentAwake_mark (env : Env) (n : Node) (tp st : Nat) : setSilentAwake env n tp st =
    if tp < env.maxMod then
      if st = 0 then ((mark n tp st).syncOff env tp, E.ok)
      else if st = 1 then ((mark n tp st).syncOn tp, E.ok) else (mark n tp st, E.invalidSilentAwake)
    else (n, E.wrongTablePos) := rfl

theorem setSilentAwake_pre (env : Env) (tp st : Nat) : Pre fun n => setSilentAwake env n tp st := by
  intro l n
  dsimp only
  rw [setSilentAwake_mark, setSilentAwake_mark]
  have e : mark (prep l n) tp st = prep l (mark n tp st) := rfl
  rw [e]
  generalize mark n tp st = m
  split
  · split
    · exact congrArg (fun x => (x, E.ok)) (syncOff_pre env tp l m)
    · split
      · exact congrArg (fun x => (x, E.ok)) (syncOn_pre tp l m)
      · rfl
  · rfl

theorem defineCtrl_pre (env : Env) (idx nr : Nat) : Pre fun n => defineCtrl env n idx nr := by
  intro l n
  dsimp only
  unfold defineCtrl
  split
  · rfl
  · have : nextFree env (prep l n) = nextFree env n := rfl
    rw [this]
    cases nextFree env n with
    | none => rfl
    | some o => exact define_pre env o _ l { n with ctrlObj := upd n.ctrlObj idx o }

theorem finish_pre (env : Env) (tp idx nr : Nat) (nrs : List Nat) : Pre fun n => finish env n tp idx nr nrs := by
  have h2 : Pre fun n => if env.sysObj2 then define env n 3 ⟨0x002, acceptMask nrs, 8, .rx false⟩ else (n, E.ok) := by
    intro l n
    dsimp only
    split
    · exact define_pre ..
    · rfl
  have h3 : Pre fun n => setSilentAwake env n tp (n.silent tp) := fun l n => setSilentAwake_pre env tp (n.silent tp) l n
  exact (((Pre.thenOk (defineCtrl_pre env idx nr) (define_pre env 6 _)).thenOk (define_pre env 2 _)).thenOk h2).thenOk h3

theorem setTx_pre (env : Env) (tp nr : Nat) : Pre fun n => setTx env n tp nr := by
  intro l n
  dsimp only
  unfold setTx
  have r : (prep l n).rows = n.rows := rfl
  rw [r]
  refine Pre.forErr (fun i l n => ?_) _ l n
  exact txCnfg_pre env tp i nr l (n.setRow tp fun r => { r with txDlcSync := upd r.txDlcSync i (r.txDlc i) })

theorem setRx1_pre (env : Env) (tp nr i : Nat) : Pre (setRx1 env tp nr i) := by
  intro l n
  unfold setRx1
  dsimp only
  have a : ∀ f l n, (prep l n).setRow tp f = prep l (n.setRow tp f) := fun _ _ _ => rfl
  have b : ∀ l n, nextFree env (prep l n) = nextFree env n := fun _ _ => rfl
  rw [a, b]
  generalize (n.setRow tp fun r => { r with rxDlcSync := upd r.rxDlcSync i (r.rxDlc i) }) = m
  cases nextFree env m with
  | none => rfl
  | some o =>
    dsimp only
    rw [a]
    exact Pre.thenOk (define_pre env o _) (addSlot_pre env o tp) l _

theorem setRx_pre (env : Env) (tp nr : Nat) : Pre fun n => setRx env n tp nr := by
  intro l n
  exact Pre.forErr (fun i => setRx1_pre env tp nr i) _ l (n.setRow tp fun r => { r with rxObjSync := r.rxObj })

theorem setModule_pre (env : Env) (tp : Nat) (tpl : Row) (nr : Nat) (rx tx : Nat → Nat) :
    Pre fun n => setModule env n tp tpl nr rx tx := by
  have h : Pre fun n => let r := finish env n tp n.nrMod (effNr tp nr) ((List.range (tp + 1)).map fun i => (n.rows i).nr)
      (({ r.1 with nrMod := r.1.nrMod + 1 } : Node), r.2) := by
    intro l n
    have := finish_pre env tp n.nrMod (effNr tp nr) ((List.range (tp + 1)).map fun i => (n.rows i).nr) l n
    dsimp only at this ⊢
    have r : (prep l n).rows = n.rows := rfl
    have r' : (prep l n).nrMod = n.nrMod := rfl
    rw [r, r', this]
    generalize finish env n tp n.nrMod (effNr tp nr) ((List.range (tp + 1)).map fun i => (n.rows i).nr) = q
    rfl
  intro l n
  exact (Pre.thenOk (setTx_pre env tp (effNr tp nr)) (Pre.thenOk (setRx_pre env tp (effNr tp nr)) h)) l (n.fillRow tp tpl (effNr tp nr) rx tx)

theorem addModule_pre (env : Env) (tpl : Row) (nr : Nat) (rx tx : Nat → Nat) : Pre fun n => addModule env n tpl nr rx tx := by
  intro l n
  dsimp only
  unfold addModule
  have r : (prep l n).rows = n.rows := rfl
  rw [r]
  cases (List.range env.maxMod).find? fun i => (n.rows i).typ = [] with
  | none => rfl
  | some i =>
    dsimp only
    split
    · have := setModule_pre env i tpl (125 + i) rx tx l n
      dsimp only at this
      rw [this]
      dsimp only
      exact congrArg (fun x => (x, _)) (report_pre env _ l _)
    · have := setModule_pre env i tpl nr rx tx l n
      dsimp only at this
      rw [this]
      dsimp only
      exact congrArg (fun x => (x, _)) (report_pre env _ l _)

theorem renumTx_pre (env : Env) (tp nr : Nat) : Pre fun n => renumTx env n tp nr := by
  intro l n
  exact Pre.forErr (fun i l n => txCnfg_pre env tp i nr l n) _ l n

theorem renumRx_pre (env : Env) (tp nr : Nat) : Pre fun n => renumRx env n tp nr := by
  intro l n
  exact Pre.forErr (fun i l n => define_pre env _ _ l n) _ l n

theorem changeNr_pre (env : Env) (typ : List Byte) (nr act : Nat) : Pre fun n => changeNr env n typ nr act := by
  intro l n
  dsimp only
  unfold changeNr
  have r : findTypeNr env (prep l n) typ act = findTypeNr env n typ act := rfl
  rw [r]
  cases findTypeNr env n typ act with
  | none => rfl
  | some tp =>
    exact Pre.thenOk (renumTx_pre env tp nr) (Pre.thenOk (renumRx_pre env tp nr)
      (g := fun n => finish env n tp tp nr ((List.range n.nrMod).map fun i => (n.rows i).nr))
      fun l n => finish_pre env tp tp nr _ l n) l (n.setRow tp fun r => { r with nr := nr })

theorem changeModuleNr_pre (env : Env) (tp nr : Nat) : Pre fun n => changeModuleNr env n tp nr := by
  intro l n
  dsimp only
  unfold changeModuleNr
  dsimp only
  have r : (prep l n).rows = n.rows := rfl
  rw [r]
  cases env.voter with
  | none => exact changeNr_pre ..
  | some v =>
    dsimp only
    cases v (n.rows tp).typ nr (n.rows tp).nr with
    | valid => exact Pre.thenOk (changeNr_pre env _ _ _) (setSilentAwake_pre env tp 1) l n
    | validButSilent => exact Pre.thenOk (changeNr_pre env _ _ _) (setSilentAwake_pre env tp 0) l n
    | _ => rfl

theorem retx_pre (env : Env) (js : List Nat) : ∀ l (r : Node × Err), retx env js (prep l r.1, r.2) = (prep l (retx env js r).1, (retx env js r).2) := by
  induction js with
  | nil => intro l r; rfl
  | cons j js ih =>
    intro l r
    unfold retx
    dsimp only
    have e : (prep l r.1).silent = r.1.silent := rfl
    have e' : (prep l r.1).rows = r.1.rows := rfl
    rw [e, e']
    split
    · have : ∀ (is : List Nat) (r : Node × Err), is.foldl (fun r i => txCnfg env r.1 j i (r.1.rows j).nr) (prep l r.1, r.2) =
          (prep l (is.foldl (fun r i => txCnfg env r.1 j i (r.1.rows j).nr) r).1, (is.foldl (fun r i => txCnfg env r.1 j i (r.1.rows j).nr) r).2) := by
        intro is
        induction is with
        | nil => intro r; rfl
        | cons i is ih2 =>
          intro r
          simp only [List.foldl_cons]
          have := txCnfg_pre env j i (r.1.rows j).nr l r.1
          dsimp only at this
          show is.foldl _ (txCnfg env (prep l r.1) j i (r.1.rows j).nr) = _
          rw [this, ih2]
      rw [this, ih]
    · exact ih ..

/-- the state before the transmit objects are programmed again -/
def retype (n : Node) (tp : Nat) (c : ChgType) : Node :=
  { (n.setRow tp fun r =>
      { r with typ := c.row.typ
               rxObj := c.row.rxObj, rxObjSync := c.row.rxObjSync
               rx := c.row.rx, rxDlc := c.row.rxDlc, rxMain := c.row.rxMain
               rxDlcSync := c.row.rxDlc, rxMainSync := c.row.rxMainSync
               txObj := c.row.txObj, txObjSync := c.row.txObjSync
               tx := c.row.tx, txDlc := c.row.txDlc, txMain := c.row.txMain
               txDlcSync := c.row.txDlc, txMainSync := c.row.txMainSync }) with tx := { n.tx with reg := 0, last := 0 } }

theorem changeType_retype (env : Env) (n : Node) (tp : Nat) (typ : List Byte) : changeType env n tp typ =
    match n.chg tp with
    | none => (n, E.typeChangeFailed)
    | some c =>
      if c.row.typ.take 4 = typ.take 4 then
        let r := retx env (List.range (retype n tp c).nrMod) (retype n tp c, E.ok)
        if c.hasCb then ({ r.1 with log := .typeCb typ :: r.1.log }, r.2) else r
      else (n, E.ok) := rfl

theorem changeType_pre (env : Env) (tp : Nat) (typ : List Byte) : Pre fun n => changeType env n tp typ := by
  intro l n
  dsimp only
  rw [changeType_retype, changeType_retype]
  have e : (prep l n).chg = n.chg := rfl
  rw [e]
  cases n.chg tp with
  | none => rfl
  | some c =>
    dsimp only
    have e : retype (prep l n) tp c = prep l (retype n tp c) := rfl
    rw [e]
    generalize retype n tp c = m
    have e : (prep l m).nrMod = m.nrMod := rfl
    rw [e]
    have h := retx_pre env (List.range m.nrMod) l (m, E.ok)
    dsimp only at h
    rw [h]
    generalize retx env (List.range m.nrMod) (m, E.ok) = q at *
    split
    · split
      · rfl
      · rfl
    · rfl

theorem sendOne_pre (env : Env) (tp obj : Nat) (buf : List Byte) : Pre fun n => sendOne env n tp obj buf := by
  intro l n
  dsimp only
  unfold sendOne
  dsimp only
  have e : (prep l n).rows = n.rows := rfl
  have e1 : (prep l n).mem = n.mem := rfl
  have e2 : (prep l n).tx = n.tx := rfl
  rw [e, e1, e2]
  split
  · rfl
  · split
    · have := send_pre env ⟨n.tx.id tp obj, n.tx.dlc tp obj, (callTx env ((n.rows tp).txMainSync obj) (n.mem ((n.rows tp).tx obj)) ((n.rows tp).txDlc obj) buf).1.take (n.tx.dlc tp obj)⟩ l n
      dsimp only at this
      rw [this]
      dsimp only
      exact congrArg (fun x => (x, _)) (report_pre env _ l _)
    · exact congrArg (fun x => (x, _)) (report_pre env _ l _)

theorem sendRun_pre (env : Env) (k : Nat) : ∀ l (s : SendSt), sendRun env k { s with node := prep l s.node } = (sendRun env k s).map (prep l) := by
  induction k with
  | zero =>
    intro l s
    unfold sendRun
    dsimp only
    split <;> rfl
  | succ k ih =>
    intro l s
    unfold sendRun sendStep
    dsimp only
    have e2 : (prep l s.node).tx = s.node.tx := rfl
    rw [e2]
    split
    · next h => 
      split at h
      · rename_i h0
        rw [if_pos h0]; rfl
      · split at h
        · cases h
        · split at h <;> cases h
    · next s' h =>
      split at h
      · cases h
      · rename_i h0
        rw [if_neg h0]
        split at h
        · rename_i h1
          rw [if_pos h1]
          cases h
          exact ih l { s with cur := s.cur + 1, send := s.send >>> 1 }
        · rename_i h1
          rw [if_neg h1]
          split at h
          · rename_i h2
            rw [if_pos h2]
            cases h
            have := sendOne_pre env (s.cur / 4) (s.cur % 4) s.buf l s.node
            dsimp only at this
            rw [this]
            exact ih l { send := s.send >>> 1, cur := s.cur + 1, buf := (sendOne env s.node (s.cur / 4) (s.cur % 4) s.buf).2, node := (sendOne env s.node (s.cur / 4) (s.cur % 4) s.buf).1 }
          · rename_i h2
            rw [if_neg h2]
            cases h
            exact ih l s

theorem sendProcessData_pre (env : Env) (l : List Ev) (n : Node) : sendProcessData env (prep l n) = (sendProcessData env n).map (prep l) :=
  sendRun_pre env 32 l ⟨n.tx.reg, 0, env.garbage, n⟩

theorem sendSys_pre (env : Env) (nr : Nat) (data : List Byte) : Pre fun n => sendSys env n nr data := by
  intro l n
  dsimp only
  unfold sendSys
  have r : findNr env (prep l n) nr = findNr env n nr := rfl
  rw [r]
  cases findNr env n nr with
  | none => rfl
  | some tp =>
    dsimp only
    have e : (prep l n).silent = n.silent := rfl
    rw [e]
    split
    · rfl
    · rfl

end Node
end LiCan
