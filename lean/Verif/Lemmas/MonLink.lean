import Verif.Lemmas.MonVerdict
/-! # Slaves with monitor controller: what registration and number changes leave alone; monitor frames -/
namespace LiCan
open Node Spec Slave
namespace Mon

/-- the state of the requests on both controllers -/
def prA (s : SyncVars) : Nat × Nat × Nat := (s.prFlag, s.prCnt, s.prDlc)
def prB (m : MonVars) : Nat × Nat × Nat := (m.prFlag, m.prCnt, m.prDlc)

/-- node mode, rates and process image state are the same -/
structure Calm (d d' : Mon) : Prop where
  link : d'.s.link = d.s.link
  sync : d'.s.sync = d.s.sync
  rate : d'.m.hwRate = d.m.hwRate
  drv  : d'.m.drv = d.m.drv
  flag : prB d'.m = prB d.m

theorem Calm.refl (d : Mon) : Calm d d := ⟨rfl, rfl, rfl, rfl, rfl⟩
theorem Calm.trans {a b c : Mon} (h : Calm a b) (g : Calm b c) : Calm a c :=
  ⟨g.1.trans h.1, g.2.trans h.2, g.3.trans h.3, g.4.trans h.4, g.5.trans h.5⟩

theorem Calm.andThen {r : Mon × Err} {f : Mon → Mon × Err} {d : Mon} (h : Calm d r.1)
    (hf : ∀ d, Calm d (f d).1) : Calm d (Mon.andThen r f).1 := by
  unfold Mon.andThen; split
  · exact h.trans (hf _)
  · exact h

theorem Calm.loop {f : Nat → Mon → Mon × Err} (hf : ∀ i d, Calm d (f i d).1) (is : List Nat) :
    ∀ d, Calm d (Mon.loop f is d).1 := by
  induction is with
  | nil => intro d; exact .refl _
  | cons i is ih => intro d; exact .andThen (hf i d) ih

theorem Calm.onNode (f : Node → Node × Err) (d : Mon) : Calm d (Mon.onNode f d).1 := ⟨rfl, rfl, rfl, rfl, rfl⟩

theorem Calm.onMon {f : MonVars → MonVars × Err} (h : ∀ m, (f m).1.hwRate = m.hwRate ∧ (f m).1.drv = m.drv ∧ prB (f m).1 = prB m) (d : Mon) :
    Calm d (Mon.onMon f d).1 := ⟨rfl, rfl, (h d.m).1, (h d.m).2.1, (h d.m).2.2⟩

theorem define_calm (me : MonEnv) (m : MonVars) (o : Nat) (x : MonDef) :
    (define me m o x).1.hwRate = m.hwRate ∧ (define me m o x).1.drv = m.drv ∧
      prB (define me m o x).1 = prB m := by
  unfold define; split
  · exact ⟨rfl, rfl, rfl⟩
  · dsimp only; split <;> exact ⟨rfl, rfl, rfl⟩

theorem setRxMon_calm (me : MonEnv) (tp nr i dlc : Nat) (m : MonVars) :
    (setRxMon me tp nr i dlc m).1.hwRate = m.hwRate ∧ (setRxMon me tp nr i dlc m).1.drv = m.drv ∧
      prB (setRxMon me tp nr i dlc m).1 = prB m := by
  unfold setRxMon; split
  · exact ⟨rfl, rfl, rfl⟩
  · next o _ =>
    have h := define_calm me { m with rxObj := upd m.rxObj tp (upd (m.rxObj tp) i o) } o ⟨syncRxId nr i, 0x7FF#16, dlc, .rx true⟩
    generalize define me { m with rxObj := upd m.rxObj tp (upd (m.rxObj tp) i o) } o ⟨syncRxId nr i, 0x7FF#16, dlc, .rx true⟩ = r at *
    unfold mThen addRxSlot
    split
    · dsimp only; split <;> exact h
    · exact h

theorem setTxMon_calm (me : MonEnv) (tp nr i dlc : Nat) (m : MonVars) :
    (setTxMon me tp nr i dlc m).1.hwRate = m.hwRate ∧ (setTxMon me tp nr i dlc m).1.drv = m.drv ∧
      prB (setTxMon me tp nr i dlc m).1 = prB m := by
  unfold setTxMon; split
  · exact ⟨rfl, rfl, rfl⟩
  · next o _ =>
    have h := define_calm me { m with txObj := upd m.txObj tp (upd (m.txObj tp) i o) } o ⟨syncTxId nr i, 0x7FF#16, dlc, .rxMain⟩
    generalize define me { m with txObj := upd m.txObj tp (upd (m.txObj tp) i o) } o ⟨syncTxId nr i, 0x7FF#16, dlc, .rxMain⟩ = r at *
    unfold mThen addTxSlot
    split
    · dsimp only; split <;> exact h
    · exact h

theorem setSilentAwake_calm (me : MonEnv) (d : Mon) (tp st : Nat) : Calm d (setSilentAwake me d tp st).1 := by
  unfold setSilentAwake
  dsimp only
  split
  · split
    · exact ⟨rfl, rfl, rfl, rfl, rfl⟩
    · split <;> exact ⟨rfl, rfl, rfl, rfl, rfl⟩
  · exact ⟨rfl, rfl, rfl, rfl, rfl⟩

theorem setRx_calm (me : MonEnv) (d : Mon) (tp nr : Nat) : Calm d (setRx me d tp nr).1 := by
  unfold setRx
  have h := Calm.onNode (fun n => (n.setRow tp fun r => { r with rxObjSync := r.rxObj }, E.ok)) d
  generalize (onNode (fun n => (n.setRow tp fun r => { r with rxObjSync := r.rxObj }, E.ok)) d).1 = d1 at *
  dsimp only
  exact h.trans (.loop (fun i d => .andThen (.onNode _ _) fun d => .onMon (setRxMon_calm me tp nr i _) d) _ _)

theorem setTx_calm (me : MonEnv) (d : Mon) (tp nr : Nat) : Calm d (setTx me d tp nr).1 := by
  unfold setTx
  exact .loop (fun i d => .andThen (.onNode _ _) fun d => .onMon (setTxMon_calm me tp nr i _) d) _ _

theorem finish_calm (me : MonEnv) (d : Mon) (tp idx nr : Nat) (nrs : List Nat) : Calm d (finish me d tp idx nr nrs).1 := by
  rw [finish_eq]
  exact .andThen (.onNode _ _) fun d => setSilentAwake_calm ..

theorem tail_calm (me : MonEnv) (tp nr : Nat) (d : Mon) : Calm d (tail me tp nr d).1 := by
  unfold tail
  have h := finish_calm me d tp d.s.node.nrMod nr ((List.range (tp + 1)).map fun i => (d.s.node.rows i).nr)
  generalize finish me d tp d.s.node.nrMod nr ((List.range (tp + 1)).map fun i => (d.s.node.rows i).nr) = r at *
  exact h.trans ⟨rfl, rfl, rfl, rfl, rfl⟩

theorem setModule_calm (me : MonEnv) (d : Mon) (tp : Nat) (tpl : Row) (mt : MonTpl) (nr : Nat) (rx tx : Nat → Nat) :
    Calm d (setModule me d tp tpl mt nr rx tx).1 := by
  rw [setModule_eq]
  generalize hd : ({ s := { d.s with node := d.s.node.fillRow tp tpl (effNr tp nr) rx tx }, m := fillMon d.m tp mt } : Mon) = d1
  have h : Calm d d1 := by rw [← hd]; exact ⟨rfl, rfl, rfl, rfl, rfl⟩
  exact .andThen (h.trans (setTx_calm ..)) fun d => .andThen (setRx_calm ..) fun d => tail_calm ..

theorem addModule_calm (me : MonEnv) (d : Mon) (tpl : Row) (mt : MonTpl) (nr : Nat) (rx tx : Nat → Nat) :
    Calm d (addModule me d tpl mt nr rx tx).1 := by
  cases hf : (List.range me.maxMod).find? fun i => (d.s.node.rows i).typ = [] with
  | none =>
    have : addModule me d tpl mt nr rx tx = (d, E.maxModules) := by unfold addModule; rw [hf]
    rw [this]; exact .refl _
  | some i =>
    have h1 := setModule_calm me d i tpl mt nr rx tx
    have h2 := setModule_calm me d i tpl mt (125 + i) rx tx
    have hr : ∀ (d : Mon) e, Calm d (reportD me d e) := fun _ _ => ⟨rfl, rfl, rfl, rfl, rfl⟩
    unfold addModule
    rw [hf]
    dsimp only
    generalize setModule me d i tpl mt nr rx tx = r at *
    generalize setModule me d i tpl mt (125 + i) rx tx = r2 at *
    split
    · exact h2.trans (hr _ _)
    · exact h1.trans (hr _ _)

/-- the parts of the number change -/
def nrTx (me : MonEnv) (tp nr : Nat) (d : Mon) : Mon × Err :=
  loop (fun i d =>
        andThen (onNode (fun n => txCnfg me.toEnv n tp i nr) d) fun d =>
          onMon (fun m => define me m (m.txObj tp i) ⟨syncTxId nr i, 0x7FF#16, (d.s.node.rows tp).txDlc i, .rxMain⟩) d)
        (List.range (d.s.node.rows tp).txObj) d
def nrRx (me : MonEnv) (tp nr : Nat) (d : Mon) : Mon × Err :=
  loop (fun i d =>
        andThen (onNode (fun n => Node.define me.toEnv n ((n.rows tp).rxMsgObj i)
          ⟨syncRxId nr i, 0x7FF#16, (n.rows tp).rxDlc i, .rx true⟩) d) fun d =>
          onMon (fun m => define me m (m.rxObj tp i) ⟨syncRxId nr i, 0x7FF#16, (d.s.node.rows tp).rxDlc i, .rx true⟩) d)
        (List.range (d.s.node.rows tp).rxObj) d
def nrFin (me : MonEnv) (tp nr : Nat) (d : Mon) : Mon × Err :=
  finish me d tp tp nr ((List.range d.s.node.nrMod).map fun i => (d.s.node.rows i).nr)

theorem changeNr_eq (me : MonEnv) (d : Mon) (typ : List Byte) (nr act tp : Nat) (h : d.s.node.findTypeNr me.toEnv typ act = some tp) :
    changeNr me d typ nr act = andThen (nrTx me tp nr (onNode (fun n => (n.setRow tp fun r => { r with nr := nr }, E.ok)) d).1) fun d =>
      andThen (nrRx me tp nr d) (nrFin me tp nr) := by
  unfold changeNr; rw [h]; rfl

theorem nrTx_calm (me : MonEnv) (tp nr : Nat) (d : Mon) : Calm d (nrTx me tp nr d).1 :=
  .loop (fun _ _ => .andThen (.onNode _ _) fun _ => .onMon (fun _ => define_calm ..) _) _ _

theorem nrRx_calm (me : MonEnv) (tp nr : Nat) (d : Mon) : Calm d (nrRx me tp nr d).1 :=
  .loop (fun _ _ => .andThen (.onNode _ _) fun _ => .onMon (fun _ => define_calm ..) _) _ _

theorem changeNr_calm (me : MonEnv) (d : Mon) (typ : List Byte) (nr act : Nat) : Calm d (changeNr me d typ nr act).1 := by
  cases hf : d.s.node.findTypeNr me.toEnv typ act with
  | none =>
    unfold changeNr
    rw [hf]
    exact ⟨rfl, rfl, rfl, rfl, rfl⟩
  | some tp =>
    rw [changeNr_eq me d typ nr act tp hf]
    have h := Calm.onNode (fun n => (n.setRow tp fun r => { r with nr := nr }, E.ok)) d
    generalize (onNode (fun n => (n.setRow tp fun r => { r with nr := nr }, E.ok)) d).1 = d1 at *
    exact .andThen (h.trans (nrTx_calm ..)) fun d => .andThen (nrRx_calm ..) fun d => finish_calm ..

theorem changeModuleNr_calm (me : MonEnv) (d : Mon) (tp nr : Nat) : Calm d (changeModuleNr me d tp nr).1 := by
  have h := changeNr_calm me d (d.s.node.rows tp).typ nr (d.s.node.rows tp).nr
  unfold changeModuleNr
  dsimp only
  generalize changeNr me d (d.s.node.rows tp).typ nr (d.s.node.rows tp).nr = r at *
  split
  · exact h
  · split
    · exact .andThen h fun d => setSilentAwake_calm ..
    · exact .andThen h fun d => setSilentAwake_calm ..
    · exact .refl _

/-! ## Frames on the monitor -/

/-- the log got calls only, nothing else of the node changed -/
def OnlyCalls (n n' : Node) : Prop := ∃ l, (∀ e ∈ l, ∃ f, e = Ev.call f) ∧ n' = { n with log := l ++ n.log }

theorem OnlyCalls.refl (n : Node) : OnlyCalls n n := ⟨[], by simp, rfl⟩

theorem calls_calls {o : Option Nat} : ∀ e ∈ calls o, ∃ f, e = Ev.call f := by
  intro e he
  cases o with
  | none => simp [calls] at he
  | some f => simp [calls] at he; exact ⟨f, he⟩

theorem checkImage_calls (me : MonEnv) (d : Mon) (now : Nat) : OnlyCalls d.s.node (checkImage me d now).s.node := by
  obtain ⟨v, mt, er, a, b, c, e, -⟩ := checkFold now (List.range d.s.node.nrMod) d true
  have hl : ∀ e ∈ ((List.range d.s.node.nrMod).flatMap (modEvsM d)).reverse, ∃ f, e = Ev.call f := by
    intro e he
    simp only [List.mem_reverse, List.mem_flatMap] at he
    obtain ⟨i, -, h⟩ := he
    exact calls_calls e h
  unfold checkImage
  split
  · split
    · exact .refl _
    · split
      · exact .refl _
      · split
        · exact .refl _
        · split
          · exact .refl _
          · rw [e]
            dsimp only
            split
            · refine ⟨calls d.s.sync.allCb ++ ((List.range d.s.node.nrMod).flatMap (modEvsM d)).reverse, ?_, ?_⟩
              · intro e he
                rcases List.mem_append.1 he with h | h
                · exact calls_calls e h
                · exact hl e h
              · unfold clearImage Slave.clearImage patch Mon.callOpt Slave.callOpt
                cases d.s.sync.allCb <;> rfl
            · exact ⟨_, hl, rfl⟩
  · exact .refl _

theorem handlerMon_calls (me : MonEnv) (d : Mon) (now obj dlc id : Nat) (data : List Byte) :
    OnlyCalls d.s.node (handlerMon me d now obj dlc id data).s.node := by
  rw [handlerMon_eq]
  have k := (monRxPart_kept me d obj dlc id data).trans (monTxPart_kept me (monRxPart me d obj dlc id data) obj dlc id data)
  generalize monTxPart me (monRxPart me d obj dlc id data) obj dlc id data = d1 at *
  dsimp only
  split
  · have := checkImage_calls me d1 now
    rw [k.s] at this
    exact this
  · rw [k.s]; exact .refl _

/-! ## Rates -/

/-- link of both controllers -/
structure SameLink (d d' : Mon) : Prop where
  link : d'.s.link = d.s.link
  rate : d'.m.hwRate = d.m.hwRate
  drv  : d'.m.drv = d.m.drv

theorem SameLink.refl (d : Mon) : SameLink d d := ⟨rfl, rfl, rfl⟩
theorem SameLink.trans {a b c : Mon} (h : SameLink a b) (g : SameLink b c) : SameLink a c :=
  ⟨g.1.trans h.1, g.2.trans h.2, g.3.trans h.3⟩
theorem Calm.same {d d' : Mon} (h : Calm d d') : SameLink d d' := ⟨h.link, h.rate, h.drv⟩

theorem checkImage_link (me : MonEnv) (d : Mon) (now : Nat) : SameLink d (checkImage me d now) := by
  obtain ⟨v, mt, er, a, b, c, e, -⟩ := checkFold now (List.range d.s.node.nrMod) d true
  unfold checkImage
  split
  · split
    · exact ⟨rfl, rfl, rfl⟩
    · split
      · exact ⟨rfl, rfl, rfl⟩
      · split
        · exact ⟨rfl, rfl, rfl⟩
        · split
          · exact ⟨rfl, rfl, rfl⟩
          · rw [e]
            dsimp only
            split
            · unfold clearImage Slave.clearImage patch Mon.callOpt Slave.callOpt
              cases d.s.sync.allCb <;> exact ⟨rfl, rfl, rfl⟩
            · exact ⟨rfl, rfl, rfl⟩
  · exact .refl _

theorem monRxPart_link (me : MonEnv) (d : Mon) (obj dlc id : Nat) (data : List Byte) :
    SameLink d (monRxPart me d obj dlc id data) := by
  unfold monRxPart rxDataMon
  dsimp only
  split
  · split
    · split
      · exact .refl _
      · split
        · exact .refl _
        · split <;> exact ⟨rfl, rfl, rfl⟩
    · exact .refl _
  · exact .refl _

theorem monTxPart_link (me : MonEnv) (d : Mon) (obj dlc id : Nat) (data : List Byte) :
    SameLink d (monTxPart me d obj dlc id data) := by
  unfold monTxPart txDataMon
  dsimp only
  split
  · split
    · split
      · exact .refl _
      · split
        · exact .refl _
        · split
          · exact ⟨rfl, rfl, rfl⟩
          · split <;> exact ⟨rfl, rfl, rfl⟩
    · exact .refl _
  · exact .refl _

theorem handlerMon_link (me : MonEnv) (d : Mon) (now obj dlc id : Nat) (data : List Byte) :
    SameLink d (handlerMon me d now obj dlc id data) := by
  rw [handlerMon_eq]
  have k := (monRxPart_link me d obj dlc id data).trans (monTxPart_link me (monRxPart me d obj dlc id data) obj dlc id data)
  generalize monTxPart me (monRxPart me d obj dlc id data) obj dlc id data = d1 at *
  dsimp only
  split
  · have h := checkImage_link me d1 now
    generalize checkImage me d1 now = d2 at *
    exact k.trans (h.trans ⟨rfl, rfl, rfl⟩)
  · exact k

theorem rxProcessMain_link (env : Env) (s : Slave) (now dlc : Nat) : (rxProcessMain env s now dlc).link = s.link := by
  unfold rxProcessMain
  dsimp only
  repeat' split
  all_goals rfl

theorem processRequest_link {me : MonEnv} {d d' : Mon} {now dlc : Nat} (h : processRequest me d now dlc = some d') : SameLink d d' := by
  have h1 : SameLink d { d with s := reqRx d.s } := by
    refine ⟨?_, rfl, rfl⟩
    dsimp only
    rw [reqRx_eq]
  have h2 := checkImage_link me { d with s := reqRx d.s } now
  unfold processRequest at h
  dsimp only at h
  generalize checkImage me { d with s := reqRx d.s } now = d1 at *
  split at h
  · simp at h
  · next n hn =>
    have h3 := rxProcessMain_link me.toEnv { d1.s with node := n } now dlc
    generalize rxProcessMain me.toEnv { d1.s with node := n } now dlc = s1 at *
    refine (h1.trans h2).trans ?_
    split at h
    · obtain rfl := Option.some.inj h; exact ⟨h3, rfl, rfl⟩
    · obtain rfl := Option.some.inj h; exact ⟨h3, rfl, rfl⟩

/-- the same rate on both controllers -/
def Rates (d : Mon) : Prop := d.m.hwRate = d.s.link.hwRate

theorem SameLink.rates {d d' : Mon} (h : SameLink d d') (r : Rates d) : Rates d' := by
  unfold Rates at *; rw [h.rate, h.link, r]

theorem setMode_rates (me : MonEnv) {d : Mon} (md : Mode) (r : Rates d) : Rates (setMode me d md).1 := by
  unfold Rates at *
  unfold setMode Slave.setMode drvMode
  dsimp only
  repeat' split
  all_goals exact r

theorem setBaud_rates {d : Mon} (b : Nat) (h : Rates d) : Rates (setBaud d b).1 := by
  have step : ∀ (r : (Link × MonVars) × Err) (t : Nat), r.1.2.hwRate = r.1.1.hwRate →
      (setBaud1 b r t).1.2.hwRate = (setBaud1 b r t).1.1.hwRate := by
    intro r t h
    unfold setBaud1
    split
    · dsimp only
      unfold hwSetBaud monBaud
      dsimp only
      by_cases hm : r.1.1.mode = .init ∨ r.1.1.mode = .stopped
      · by_cases ht : t = 125 ∨ t = 250 ∨ t = 500 ∨ t = 1000
        · simp [hm, ht]
        · simp [hm, ht, h]
      · simp [hm, h]
    · exact h
  have key : ∀ (l : List Nat) (r : (Link × MonVars) × Err), r.1.2.hwRate = r.1.1.hwRate →
      (l.foldl (setBaud1 b) r).1.2.hwRate = (l.foldl (setBaud1 b) r).1.1.hwRate := by
    intro l
    induction l with
    | nil => intro r h; exact h
    | cons t l ih => intro r h; exact ih _ (step r t h)
  exact key bdrTab ((d.s.link, d.m), E.ok) h

theorem changeBaud_rates (me : MonEnv) {d : Mon} (b : Nat) (h : Rates d) : Rates (changeBaud me d b).1 := by
  unfold changeBaud
  dsimp only
  have h1 := setMode_rates me .stopped h
  generalize setMode me d .stopped = r1 at *
  have h2 : Rates (if r1.2 = E.ok then setBaud r1.1 b else r1).1 := by
    split
    · exact setBaud_rates b h1
    · exact h1
  generalize (if r1.2 = E.ok then setBaud r1.1 b else r1) = r2 at *
  split
  · exact setMode_rates me _ h2
  · exact h2

/-- a system message does not reach the link unless it is the broadcast baud rate command -/
theorem slaveSys_link {env : Env} {s s' : Slave} {nr dlc : Nat} {src : List Byte} {e : Err}
    (h : Slave.sysMsg env s nr dlc src = some (s', e))
    (hn : dlc ≠ 8 ∨ (nr ≠ 1 ∧ s.node.findNr env nr = none) ∨ (nr = 1 ∧ s.node.nrMod = 0) ∨ ¬ (at8 src 0 = 0x02 ∧ nr = 1)) :
    s'.link = s.link := by
  by_cases h2 : at8 src 0 = 0x02
  · unfold Slave.sysMsg at h
    dsimp only at h
    rw [h2] at h
    by_cases hd : dlc = 8
    · rw [if_neg (by simp [hd])] at h
      by_cases n1 : nr = 1
      · have hz : s.node.nrMod = 0 := by
          rcases hn with hn | hn | hn | hn
          · exact absurd hd hn
          · exact absurd n1 hn.1
          · exact hn.2
          · exact absurd ⟨h2, n1⟩ hn
        rw [if_neg (by simp [n1]), if_pos ⟨n1, hz⟩] at h
        cases h; rfl
      · rw [if_neg n1] at h
        cases hf : s.node.findNr env nr with
        | none => rw [hf, if_pos ⟨n1, rfl⟩] at h; cases h; rfl
        | some tp =>
          rw [hf, if_neg (by simp), if_neg (by simp [n1])] at h
          dsimp only at h
          rw [if_pos n1] at h
          cases h; rfl
    · rw [if_pos hd] at h; cases h; rfl
  · exact (sysMsg_keeps h).2.2 h2

/-- what a system message may change -/
theorem sysMsg_calm {me : MonEnv} {d d' : Mon} {nr dlc : Nat} {src : List Byte} {e : Err} (h : sysMsg me d nr dlc src = some (d', e)) :
    (∃ c, d'.s.sync = { d.s.sync with cycle := c }) ∧ (Rates d → Rates d') ∧ prB d'.m = prB d.m := by
  have lift : ((Slave.sysMsg me.toEnv d.s nr dlc src).map fun r => (({ d with s := r.1 } : Mon), r.2)) = some (d', e) →
      (dlc ≠ 8 ∨ (nr ≠ 1 ∧ d.s.node.findNr me.toEnv nr = none) ∨ (nr = 1 ∧ d.s.node.nrMod = 0) ∨ ¬ (at8 src 0 = 0x02 ∧ nr = 1)) →
      (∃ c, d'.s.sync = { d.s.sync with cycle := c }) ∧ (Rates d → Rates d') ∧ prB d'.m = prB d.m := by
    intro h1 h2
    obtain ⟨⟨s', e'⟩, h3, h4⟩ := Option.map_eq_some_iff.1 h1
    obtain ⟨rfl, rfl⟩ := Prod.mk.inj h4
    have h5 := sysMsg_keeps h3
    have h6 := slaveSys_link h3 h2
    exact ⟨h5.1, fun r => SameLink.rates (d := d) ⟨h6, rfl, rfl⟩ r, rfl⟩
  have calm : ∀ {r : Mon × Err}, Calm d r.1 → some r = some (d', e) →
      (∃ c, d'.s.sync = { d.s.sync with cycle := c }) ∧ (Rates d → Rates d') ∧ prB d'.m = prB d.m := by
    intro r hr hh
    cases hh
    exact ⟨⟨d.s.sync.cycle, hr.sync⟩, hr.same.rates, hr.flag⟩
  unfold sysMsg at h
  dsimp only at h
  split at h
  · next h1 => exact lift h (.inl h1)
  split at h
  · next h1 => exact lift h (.inr (.inl h1))
  split at h
  · next h1 => exact lift h (.inr (.inr (.inl h1)))
  split at h
  · next h1 =>
    have hr := changeBaud_rates me (d := d) (at8 src 1 * 256 + at8 src 2)
    have hs : (changeBaud me d (at8 src 1 * 256 + at8 src 2)).1.s.sync = d.s.sync := by
      unfold changeBaud setBaud setMode
      dsimp only
      repeat' split
      all_goals rfl
    have hp : prB (changeBaud me d (at8 src 1 * 256 + at8 src 2)).1.m = prB d.m := by
      have h1 : prB (setMode me d .stopped).1.m = prB d.m := rfl
      unfold changeBaud
      dsimp only
      generalize setMode me d .stopped = r1 at *
      have h2 : prB (if r1.2 = E.ok then setBaud r1.1 (at8 src 1 * 256 + at8 src 2) else r1).1.m = prB d.m := by
        split
        · have := setBaud_same r1.1 (at8 src 1 * 256 + at8 src 2)
          unfold SameRate at this
          rw [this]; exact h1
        · exact h1
      generalize (if r1.2 = E.ok then setBaud r1.1 (at8 src 1 * 256 + at8 src 2) else r1) = r2 at *
      split
      · exact h2
      · exact h2
    generalize changeBaud me d (at8 src 1 * 256 + at8 src 2) = r at *
    cases h
    exact ⟨⟨d.s.sync.cycle, hs⟩, hr, hp⟩
  · next h1 =>
    split at h
    · split at h
      · exact calm (setSilentAwake_calm ..) h
      · exact calm (.refl _) h
    · split at h
      · split at h
        · exact calm (changeModuleNr_calm ..) h
        · exact lift h (.inr (.inr (.inr h1)))
      · exact lift h (.inr (.inr (.inr h1)))

theorem handlerMain_rates {me : MonEnv} {d d' : Mon} {now obj dlc id : Nat} {data : List Byte}
    (h : handlerMain me d now obj dlc id data = some d') (r : Rates d) : Rates d' := by
  rw [handlerMain_eq] at h
  dsimp only at h
  have h1 : SameLink d { d with s := dataPart me.toEnv d.s obj dlc id data } := ⟨(dataPart_keeps ..).2.1, rfl, rfl⟩
  generalize ({ d with s := dataPart me.toEnv d.s obj dlc id data } : Mon) = d1 at *
  have h2 : ∀ x, (if obj = 0 then processRequest me d1 now dlc else some d1) = some x → SameLink d x := by
    intro x hx
    split at hx
    · exact h1.trans (processRequest_link hx)
    · cases hx; exact h1
  generalize (if obj = 0 then processRequest me d1 now dlc else some d1) = o at *
  split at h
  · obtain ⟨x, hx, hy⟩ := Option.bind_eq_some_iff.1 h
    obtain ⟨⟨y, e⟩, hz, rfl⟩ := Option.map_eq_some_iff.1 hy
    have := (sysMsg_calm hz).2.1 ((h2 x hx).rates r)
    exact this
  · exact (h2 _ h).rates r

/-- API functions of the main part -/
theorem lift_calm {me : MonEnv} {d d' : Mon} {x : In} (hx : match x with
    | .trigger _ | .setCycle _ | .allCb _ | .validCb .. | .invalidCb .. | .reqCb .. => True
    | _ => False) (h : lift me d x = some d') : d'.s.link = d.s.link ∧ d'.m = d.m ∧ d'.s.sync.valid = d.s.sync.valid ∧
    prA d'.s.sync = prA d.s.sync := by
  unfold lift at h
  obtain ⟨s, hs, rfl⟩ := Option.map_eq_some_iff.1 h
  have hmod : ∀ typ nr f, (∀ v tp, (f v tp : SyncVars).valid = v.valid ∧ prA (f v tp) = prA v) → some (setModCb me.toEnv d.s typ nr f).1 = some s →
      s.link = d.s.link ∧ s.sync.valid = d.s.sync.valid ∧ prA s.sync = prA d.s.sync := by
    intro typ nr f hf hh
    rcases setModCb_keeps me.toEnv d.s typ nr f with h1 | ⟨tp, h1⟩
    · rw [h1] at hh; cases hh; exact ⟨rfl, rfl, rfl⟩
    · rw [h1] at hh; cases hh; exact ⟨rfl, hf ..⟩
  cases x <;> simp only at hx <;> simp only [Slave.step] at hs
  case trigger t =>
    obtain ⟨p, hp⟩ := trigger_eq me.toEnv d.s t
    rw [hp] at hs; cases hs; exact ⟨rfl, rfl, rfl, rfl⟩
  case setCycle t =>
    unfold setCycle at hs
    split at hs <;> (cases hs; exact ⟨rfl, rfl, rfl, rfl⟩)
  case allCb f => cases hs; exact ⟨rfl, rfl, rfl, rfl⟩
  case validCb typ nr f =>
    have := hmod typ nr (fun v tp => { v with validCb := upd v.validCb tp f }) (fun _ _ => ⟨rfl, rfl⟩) hs
    exact ⟨this.1, rfl, this.2⟩
  case invalidCb typ nr f =>
    have := hmod typ nr (fun v tp => { v with invalidCb := upd v.invalidCb tp f }) (fun _ _ => ⟨rfl, rfl⟩) hs
    exact ⟨this.1, rfl, this.2⟩
  case reqCb typ nr f =>
    have := hmod typ nr (fun v tp => { v with reqCb := upd v.reqCb tp f }) (fun _ _ => ⟨rfl, rfl⟩) hs
    exact ⟨this.1, rfl, this.2⟩

theorem step_rates {me : MonEnv} {d d' : Mon} {x : MIn} (h : Mon.step me d x = some d') (r : Rates d) : Rates d' := by
  have calm : ∀ {y : Mon}, Calm d y → some y = some d' → Rates d' := by
    intro y hr hh
    cases hh
    exact hr.same.rates r
  have lft : ∀ {y : In}, (match y with
    | .trigger _ | .setCycle _ | .allCb _ | .validCb .. | .invalidCb .. | .reqCb .. => True
    | _ => False) → lift me d y = some d' → Rates d' := by
    intro y hy h
    obtain ⟨h1, h2, -⟩ := lift_calm hy h
    unfold Rates at *
    rw [h1, h2, r]
  cases x <;> simp only [Mon.step] at h
  case main => exact handlerMain_rates h r
  case mon => cases h; exact (handlerMon_link ..).rates r
  case write => cases h; exact r
  case add => exact calm (addModule_calm ..) h
  case silentAwakeBy =>
    split at h
    · exact calm (setSilentAwake_calm ..) h
    · cases h; exact r
  case setActive =>
    split at h
    · next tp _ => exact calm (y := rowOn d tp) ⟨rfl, rfl, rfl, rfl, rfl⟩ h
    · cases h; exact r
  case setCritical =>
    split at h
    · next tp _ => exact calm (y := rowOff me d tp) ⟨rfl, rfl, rfl, rfl, rfl⟩ h
    · cases h; exact r
  case changeNr => exact calm (changeNr_calm ..) h
  case setMode => cases h; exact setMode_rates me _ r
  case setBaud => cases h; exact setBaud_rates _ r
  all_goals exact lft trivial h

/-! ## One controller without requests -/

/-- the verdicts stay the same, the monitor has no request -/
def Idle (b : Bool) (d : Mon) : Prop := if b then d.s.sync.prFlag = 0 else d.m.prFlag = 0

/-- the verdicts and the state of one controller -/
structure Still (d d' : Mon) : Prop where
  valid : d'.s.sync.valid = d.s.sync.valid
  main  : prA d'.s.sync = prA d.s.sync
  mon   : prB d'.m = prB d.m

theorem Still.refl (d : Mon) : Still d d := ⟨rfl, rfl, rfl⟩
theorem Still.trans {a b c : Mon} (h : Still a b) (g : Still b c) : Still a c :=
  ⟨g.1.trans h.1, g.2.trans h.2, g.3.trans h.3⟩
theorem Calm.still {d d' : Mon} (h : Calm d d') : Still d d' := ⟨by rw [h.sync], by rw [h.sync], h.flag⟩

theorem Still.idle {d d' : Mon} {b : Bool} (h : Still d d') (i : Idle b d) : Idle b d' := by
  unfold Idle at *
  have h1 := congrArg Prod.fst h.main
  have h2 := congrArg Prod.fst h.mon
  dsimp only [prA, prB] at h1 h2
  cases b
  · simpa [h2] using i
  · simpa [h1] using i

theorem Idle.or {b : Bool} {d : Mon} (h : Idle b d) : d.s.sync.prFlag = 0 ∨ d.m.prFlag = 0 := by
  unfold Idle at h
  cases b
  · exact .inr (by simpa using h)
  · exact .inl (by simpa using h)

theorem rxProcessMain_valid (env : Env) (s : Slave) (now dlc : Nat) : (rxProcessMain env s now dlc).sync.valid = s.sync.valid := by
  unfold rxProcessMain
  dsimp only
  repeat' split
  all_goals rfl

theorem processRequest_idle {me : MonEnv} {d d' : Mon} {now dlc : Nat} (i : d.m.prFlag = 0)
    (h : processRequest me d now dlc = some d') : d'.s.sync.valid = d.s.sync.valid ∧ d'.m.prFlag = 0 := by
  unfold processRequest at h
  rw [checkImage_idle me { d with s := reqRx d.s } now (.inr i)] at h
  have h1 : (reqRx d.s).sync.valid = d.s.sync.valid := by rw [reqRx_eq]
  dsimp only at h
  generalize reqRx d.s = s1 at *
  split at h
  · simp at h
  · next n hn =>
    have h3 := rxProcessMain_valid me.toEnv { s1 with node := n } now dlc
    generalize rxProcessMain me.toEnv { s1 with node := n } now dlc = s2 at *
    have h4 : s2.sync.valid = d.s.sync.valid := h3.trans h1
    split at h
    · obtain rfl := Option.some.inj h; exact ⟨h4, i⟩
    · obtain rfl := Option.some.inj h; exact ⟨h4, i⟩

/-- a request on the given controller (`true`: main) -/
def reqOn (b : Bool) : MIn → Bool
  | .main _ obj _ _ _ => b && obj == 0
  | .mon _ obj _ _ _ => !b && obj == 1
  | _ => false

theorem dataKept_still {d d' : Mon} (h : DataKept d d') : Still d d' :=
  ⟨by rw [h.s], by rw [h.s], by unfold prB; rw [h.prFlag, h.prCnt, h.prDlc]⟩

theorem main_idle {me : MonEnv} {d d' : Mon} {b : Bool} {now obj dlc id : Nat} {data : List Byte} (i : Idle b d)
    (hr : reqOn b (.main now obj dlc id data) = false)
    (h : handlerMain me d now obj dlc id data = some d') : d'.s.sync.valid = d.s.sync.valid ∧ Idle b d' := by
  rw [handlerMain_eq] at h
  dsimp only at h
  obtain ⟨-, -, -, -, -, c, hc, -⟩ := dataPart_keeps me.toEnv d.s obj dlc id data
  have h1 : Still d { d with s := dataPart me.toEnv d.s obj dlc id data } := ⟨by dsimp only; rw [hc], by dsimp only [prA]; rw [hc], rfl⟩
  generalize ({ d with s := dataPart me.toEnv d.s obj dlc id data } : Mon) = d1 at *
  have h2 : ∀ x, (if obj = 0 then processRequest me d1 now dlc else some d1) = some x → x.s.sync.valid = d.s.sync.valid ∧ Idle b x := by
    intro x hx
    split at hx
    · next h0 =>
      cases b
      · have i1 : d1.m.prFlag = 0 := by have := h1.idle i; simpa [Idle] using this
        obtain ⟨p1, p2⟩ := processRequest_idle i1 hx
        exact ⟨p1.trans h1.valid, by simpa [Idle] using p2⟩
      · simp [reqOn, h0] at hr
    · cases hx; exact ⟨h1.valid, h1.idle i⟩
  generalize (if obj = 0 then processRequest me d1 now dlc else some d1) = o at *
  split at h
  · obtain ⟨x, hx, hy⟩ := Option.bind_eq_some_iff.1 h
    obtain ⟨⟨y, e⟩, hz, rfl⟩ := Option.map_eq_some_iff.1 hy
    obtain ⟨⟨c, hc⟩, -, hp⟩ := sysMsg_calm hz
    obtain ⟨v, j⟩ := h2 x hx
    have st : Still x y := ⟨by rw [hc], by dsimp only [prA]; rw [hc], hp⟩
    have st2 : Still y (reportD me y e) := ⟨rfl, rfl, rfl⟩
    exact ⟨(st2.valid.trans st.valid).trans v, (st.trans st2).idle j⟩
  · exact h2 _ h

theorem mon_idle {me : MonEnv} {d : Mon} {b : Bool} {now obj dlc id : Nat} {data : List Byte} (i : Idle b d)
    (hr : reqOn b (.mon now obj dlc id data) = false) :
    (handlerMon me d now obj dlc id data).s.sync.valid = d.s.sync.valid ∧ Idle b (handlerMon me d now obj dlc id data) := by
  rw [handlerMon_eq]
  have k := dataKept_still ((monRxPart_kept me d obj dlc id data).trans (monTxPart_kept me (monRxPart me d obj dlc id data) obj dlc id data))
  generalize monTxPart me (monRxPart me d obj dlc id data) obj dlc id data = d1 at *
  dsimp only
  split
  · next h1 =>
    rw [checkImage_idle me d1 now (k.idle i).or]
    refine ⟨k.valid, ?_⟩
    cases b
    · simp [reqOn, h1] at hr
    · have := k.idle i
      simpa [Idle, rxProcessMon] using this
  · exact ⟨k.valid, k.idle i⟩

theorem step_idle {me : MonEnv} {d d' : Mon} {b : Bool} {x : MIn} (i : Idle b d) (hr : reqOn b x = false)
    (h : Mon.step me d x = some d') : d'.s.sync.valid = d.s.sync.valid ∧ Idle b d' := by
  have still : ∀ {y : Mon}, Still d y → some y = some d' → d'.s.sync.valid = d.s.sync.valid ∧ Idle b d' := by
    intro y hr hh
    cases hh
    exact ⟨hr.valid, hr.idle i⟩
  have lft : ∀ {y : In}, (match y with
    | .trigger _ | .setCycle _ | .allCb _ | .validCb .. | .invalidCb .. | .reqCb .. => True
    | _ => False) → lift me d y = some d' → d'.s.sync.valid = d.s.sync.valid ∧ Idle b d' := by
    intro y hy h
    obtain ⟨-, h2, h3, h4⟩ := lift_calm hy h
    exact ⟨h3, Still.idle ⟨h3, h4, by rw [h2]⟩ i⟩
  cases x <;> simp only [Mon.step] at h
  case main => exact main_idle i hr h
  case mon => cases h; exact mon_idle i hr
  case write p v => exact still (y := { d with s := { d.s with node := { d.s.node with mem := upd d.s.node.mem p v } } }) ⟨rfl, rfl, rfl⟩ h
  case add => exact still (addModule_calm ..).still h
  case silentAwakeBy =>
    split at h
    · exact still (setSilentAwake_calm ..).still h
    · exact still (.refl _) h
  case setActive =>
    split at h
    · next tp _ => exact still (y := rowOn d tp) ⟨rfl, rfl, rfl⟩ h
    · exact still (.refl _) h
  case setCritical =>
    split at h
    · next tp _ => exact still (y := rowOff me d tp) ⟨rfl, rfl, rfl⟩ h
    · exact still (.refl _) h
  case changeNr => exact still (changeNr_calm ..).still h
  case setMode md => exact still (y := (setMode me d md).1) ⟨rfl, rfl, rfl⟩ h
  case setBaud bd =>
    have := setBaud_same d bd
    unfold SameRate at this
    exact still (y := (setBaud d bd).1) ⟨rfl, rfl, by rw [this]; rfl⟩ h
  all_goals exact lft trivial h

theorem run_idle {me : MonEnv} {b : Bool} (xs : List MIn) : ∀ {d d' : Mon}, Idle b d → (∀ x ∈ xs, reqOn b x = false) →
    Mon.run me d xs = some d' → d'.s.sync.valid = d.s.sync.valid ∧ Idle b d' := by
  induction xs with
  | nil => intro d d' i _ h; cases h; exact ⟨rfl, i⟩
  | cons x xs ih =>
    intro d d' i hr h
    unfold Mon.run at h
    cases hs : Mon.step me d x with
    | none => rw [hs] at h; simp at h
    | some d1 =>
      rw [hs] at h
      obtain ⟨v, j⟩ := step_idle i (hr x (by simp)) hs
      obtain ⟨v2, j2⟩ := ih j (fun y hy => hr y (by simp [hy])) h
      exact ⟨v2.trans v, j2⟩

end Mon
end LiCan
