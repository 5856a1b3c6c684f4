import Verif.Lemmas.SlaveLog
import Verif.Lemmas.MonRun
import Verif.Lemmas.MonLink
/-! # The main part of a slave with monitor controller behaves like a slave without one -/
namespace LiCan
open Node Slave

namespace Slave

theorem checkImage_calls (env : Env) (s : Slave) (now : Nat) : Mon.OnlyCalls s.node (checkImage env s now).node ∧
    (checkImage env s now).link = s.link ∧ (checkImage env s now).sys = s.sys ∧
    (checkImage env s now).sync.cycle = s.sync.cycle ∧ (checkImage env s now).sync.stamp = s.sync.stamp ∧
    (checkImage env s now).sync.periode = s.sync.periode := by
  obtain ⟨v, mt, er, e, -⟩ := checkFold now (List.range s.node.nrMod) s true
  have hl : ∀ e ∈ ((List.range s.node.nrMod).flatMap (modEvs s)).reverse, ∃ f, e = Ev.call f := by
    intro e he
    simp only [List.mem_reverse, List.mem_flatMap] at he
    obtain ⟨i, -, h⟩ := he
    exact Mon.calls_calls e h
  unfold checkImage
  split
  · split
    · exact ⟨.refl _, rfl, rfl, rfl, rfl, rfl⟩
    · split
      · exact ⟨.refl _, rfl, rfl, rfl, rfl, rfl⟩
      · dsimp only
        rw [e]
        dsimp only
        split
        · unfold clearImage
          dsimp only
          simp only [callOpt_node, callOpt_link, callOpt_sys, callOpt_sync, and_true]
          refine ⟨calls s.sync.allCb ++ ((List.range s.node.nrMod).flatMap (modEvs s)).reverse, ?_, ?_⟩
          · intro e he
            rcases List.mem_append.1 he with h | h
            · exact Mon.calls_calls e h
            · exact hl e h
          · rw [List.append_assoc]
        · exact ⟨⟨_, hl, rfl⟩, rfl, rfl, rfl, rfl, rfl⟩
  · exact ⟨.refl _, rfl, rfl, rfl, rfl, rfl⟩

theorem reqRx_calls (s : Slave) : Mon.OnlyCalls s.node (reqRx s).node ∧ (reqRx s).link = s.link ∧ (reqRx s).sys = s.sys ∧
    (reqRx s).sync.cycle = s.sync.cycle ∧ (reqRx s).sync.stamp = s.sync.stamp ∧ (reqRx s).sync.periode = s.sync.periode := by
  rw [reqRx_eq]
  refine ⟨⟨(reqEvs s).reverse, ?_, rfl⟩, rfl, rfl, rfl, rfl, rfl⟩
  intro e he
  rw [List.mem_reverse] at he
  unfold reqEvs at he
  rcases List.mem_append.1 he with h | h
  · split at h
    · cases h
    · exact Mon.calls_calls e h
  · simp only [List.mem_flatMap] at h
    obtain ⟨i, -, h⟩ := h
    exact Mon.calls_calls e h

theorem dataPart_twin (env : Env) {a b : Slave} (h : Twin a b) (obj dlc id : Nat) (data : List Byte) :
    Twin (dataPart env a obj dlc id data) (dataPart env b obj dlc id data) := by
  unfold dataPart
  rw [h.node.hw]
  split
  · have : b.node.slotRow obj = a.node.slotRow obj := by unfold slotRow; rw [h.node.slots]
    rw [this]
    cases a.node.slotRow obj with
    | none => exact h
    | some tp =>
      dsimp only
      unfold rxData
      dsimp only
      rw [h.node.rows]
      split
      · exact h
      · split
        · exact h
        · exact ⟨(h.node.pre (callRx_pre env ((a.node.rows tp).rxMainSync (syncObjOfId id)) data ((a.node.rows tp).rx (syncObjOfId id)) dlc)).1,
            h.link, h.sys, h.cyc, h.stamp, h.per⟩
  · exact h

/-- what follows the check of the process image when a process request is received -/
def reqTail (env : Env) (s : Slave) (now dlc : Nat) : Option Slave :=
  match s.node.sendProcessData env with
  | none => none
  | some n =>
    let s := rxProcessMain env { s with node := n } now dlc
    if env.sysErr ∧ 0 < s.node.errq.getCount then
      some { s with node := (sendOneError env s.node).1 }
    else some s

theorem reqTail_twin (env : Env) {a b a' : Slave} (h : Twin a b) (now dlc : Nat) (ha : reqTail env a now dlc = some a') :
    ∃ b', reqTail env b now dlc = some b' ∧ Twin a' b' := by
  unfold reqTail at ha ⊢
  cases hs : a.node.sendProcessData env with
  | none => rw [hs] at ha; cases ha
  | some n =>
    obtain ⟨n', hn', hal⟩ := sendProcessData_alike env h.node hs
    rw [hs] at ha
    rw [hn']
    dsimp only at ha ⊢
    unfold rxProcessMain at ha ⊢
    dsimp only at ha ⊢
    rw [hal.errq]
    split at ha
    · next hc =>
      cases ha
      rw [if_pos hc]
      refine ⟨_, rfl, (hal.pre (sendOneError_pre env)).1, h.link, h.sys, h.cyc, rfl, ?_⟩
      dsimp only
      rw [h.stamp]
    · next hc =>
      cases ha
      rw [if_neg hc]
      refine ⟨_, rfl, hal, h.link, h.sys, h.cyc, rfl, ?_⟩
      dsimp only
      rw [h.stamp]

theorem Twin.report {a b : Slave} (h : Twin a b) (env : Env) (e : Err) :
    Twin { a with node := a.node.report env e } { b with node := b.node.report env e } :=
  ⟨h.node.preN (report_pre env e), h.link, h.sys, h.cyc, h.stamp, h.per⟩

theorem Twin.table {a b : Slave} (h : Twin a b) {f : Node → Node × Err} (hf : Pre f) :
    Twin { a with node := (f a.node).1 } { b with node := (f b.node).1 } :=
  ⟨(h.node.pre hf).1, h.link, h.sys, h.cyc, h.stamp, h.per⟩

end Slave

namespace Mon

/-- `F` does to the main part what `G` does, and returns the same -/
def Par (F : Mon → Mon × Err) (G : Node → Node × Err) : Prop :=
  ∀ d, (F d).2 = (G d.s.node).2 ∧ (F d).1.s = { d.s with node := (G d.s.node).1 }

theorem Par.andThen {F1 F2 : Mon → Mon × Err} {G1 G2 : Node → Node × Err} (h1 : Par F1 G1) (h2 : Par F2 G2) :
    Par (fun d => Mon.andThen (F1 d) F2) (fun n => thenOk (G1 n) G2) := by
  intro d
  obtain ⟨a1, a2⟩ := h1 d
  obtain ⟨b1, b2⟩ := h2 (F1 d).1
  unfold Mon.andThen thenOk
  dsimp only
  rw [a1]
  split
  · rw [b1, b2, a2]; exact ⟨rfl, rfl⟩
  · exact ⟨a1, a2⟩

theorem Par.loop {f : Nat → Mon → Mon × Err} {g : Nat → Node → Node × Err} (h : ∀ i, Par (f i) (g i)) :
    ∀ is, Par (Mon.loop f is) (forErr g is) := by
  intro is
  induction is with
  | nil => intro d; exact ⟨rfl, rfl⟩
  | cons i is ih => exact (h i).andThen ih

theorem Par.node (g : Node → Node × Err) : Par (onNode g) g := fun _ => ⟨rfl, rfl⟩

theorem define_acc {me : MonEnv} (hm : ∀ k, me.monOk k = true) (m : MonVars) (o : Nat) (x : MonDef) : (define me m o x).2 = E.ok := by
  unfold define
  split
  · rfl
  · dsimp only
    rw [if_pos (hm _)]

theorem Par.both (g : Node → Node × Err) (f : Mon → MonVars → MonVars × Err) (hf : ∀ d m, (f d m).2 = E.ok) :
    Par (fun d => Mon.andThen (onNode g d) fun d => onMon (f d) d) g := by
  intro d
  unfold Mon.andThen onNode onMon
  dsimp only
  split
  · next h => exact ⟨by rw [h]; exact hf _ _, rfl⟩
  · exact ⟨rfl, rfl⟩

theorem finish_par (me : MonEnv) (tp idx nr : Nat) (nrs : List Nat) :
    Par (fun d => finish me d tp idx nr nrs) (fun n => Node.finish me.toEnv n tp idx nr nrs) := by
  have h2 : Par (fun d => setSilentAwake me d tp (d.s.node.silent tp)) fun n => Node.setSilentAwake me.toEnv n tp (n.silent tp) := fun _ => ⟨rfl, rfl⟩
  have := Par.andThen (Par.node (finHead me.toEnv idx nr nrs)) h2
  intro d
  dsimp only
  rw [finish_eq, nodeFinish_eq]
  exact this d

theorem changeNr_par {me : MonEnv} (hm : ∀ k, me.monOk k = true) (typ : List Byte) (nr act : Nat) :
    Par (fun d => changeNr me d typ nr act) (fun n => Node.changeNr me.toEnv n typ nr act) := by
  intro d
  dsimp only
  unfold changeNr Node.changeNr
  cases d.s.node.findTypeNr me.toEnv typ act with
  | none => exact ⟨rfl, rfl⟩
  | some tp =>
    dsimp only
    have e : (onNode (fun n => (n.setRow tp fun r => { r with nr := nr }, E.ok)) d).1 =
      { d with s := { d.s with node := d.s.node.setRow tp fun r => { r with nr := nr } } } := rfl
    rw [e]
    have tx : ∀ is, Par (Mon.loop (fun i d =>
        Mon.andThen (onNode (fun n => txCnfg me.toEnv n tp i nr) d) fun d =>
          onMon (fun m => define me m (m.txObj tp i) ⟨syncTxId nr i, 0x7FF#16, (d.s.node.rows tp).txDlc i, .rxMain⟩) d) is)
        (forErr (fun i n => txCnfg me.toEnv n tp i nr) is) :=
      Par.loop fun i => Par.both _ _ fun _ _ => define_acc hm _ _ _
    have rx : ∀ is, Par (Mon.loop (fun i d =>
        Mon.andThen (onNode (fun n => Node.define me.toEnv n ((n.rows tp).rxMsgObj i)
          ⟨syncRxId nr i, 0x7FF#16, (n.rows tp).rxDlc i, .rx true⟩) d) fun d =>
          onMon (fun m => define me m (m.rxObj tp i) ⟨syncRxId nr i, 0x7FF#16, (d.s.node.rows tp).rxDlc i, .rx true⟩) d) is)
        (forErr (fun i n => Node.define me.toEnv n ((n.rows tp).rxMsgObj i)
          ⟨syncRxId nr i, 0x7FF#16, (n.rows tp).rxDlc i, .rx true⟩) is) :=
      Par.loop fun i => Par.both _ _ fun _ _ => define_acc hm _ _ _
    have fin : Par (fun d => finish me d tp tp nr ((List.range d.s.node.nrMod).map fun i => (d.s.node.rows i).nr))
        (fun n => Node.finish me.toEnv n tp tp nr ((List.range n.nrMod).map fun i => (n.rows i).nr)) :=
      fun d => finish_par me tp tp nr _ d
    have rx' : Par (fun d => Mon.loop (fun i d =>
        Mon.andThen (onNode (fun n => Node.define me.toEnv n ((n.rows tp).rxMsgObj i)
          ⟨syncRxId nr i, 0x7FF#16, (n.rows tp).rxDlc i, .rx true⟩) d) fun d =>
          onMon (fun m => define me m (m.rxObj tp i) ⟨syncRxId nr i, 0x7FF#16, (d.s.node.rows tp).rxDlc i, .rx true⟩) d)
          (List.range (d.s.node.rows tp).rxObj) d) (fun n => renumRx me.toEnv n tp nr) :=
      fun d => rx _ d
    exact Par.andThen (tx _) (Par.andThen rx' fin) _

theorem changeModuleNr_par {me : MonEnv} (hm : ∀ k, me.monOk k = true) (tp nr : Nat) :
    Par (fun d => changeModuleNr me d tp nr) (fun n => Node.changeModuleNr me.toEnv n tp nr) := by
  intro d
  dsimp only
  unfold changeModuleNr Node.changeModuleNr
  dsimp only
  cases me.voter with
  | none => exact changeNr_par hm _ _ _ d
  | some v =>
    dsimp only
    cases v (d.s.node.rows tp).typ nr (d.s.node.rows tp).nr with
    | valid => exact Par.andThen (changeNr_par hm _ _ _) (fun _ => ⟨rfl, rfl⟩ : Par (fun d => setSilentAwake me d tp 1) _) d
    | validButSilent => exact Par.andThen (changeNr_par hm _ _ _) (fun _ => ⟨rfl, rfl⟩ : Par (fun d => setSilentAwake me d tp 0) _) d
    | error => exact ⟨rfl, rfl⟩
    | forbidden => exact ⟨rfl, rfl⟩

theorem onMon_par (f : MonVars → MonVars × Err) (hf : ∀ m, (f m).2 = E.ok) : Par (onMon f) fun n => (n, E.ok) :=
  fun d => ⟨hf d.m, rfl⟩

theorem thenOk_ret (r : Node × Err) : (thenOk r fun n => (n, E.ok)) = r := by
  unfold thenOk
  split
  · next h => rw [← h]
  · rfl

theorem initDefs_par {me : MonEnv} (hm : ∀ k, me.monOk k = true) : Par (initDefs me) (fun n =>
    thenOk (thenOk (thenOk (thenOk (Node.define me.toEnv n 0 ⟨0x001, 0x7FF#16, 1, .rx false⟩)
      fun n => Node.define me.toEnv n 2 ⟨0x002, 0x7FF#16, 8, .rx false⟩)
      fun n => if me.sysObj2 then Node.define me.toEnv n 3 ⟨0x002, 0x7FF#16, 8, .rx false⟩ else (n, E.ok))
      fun n => Node.define me.toEnv n 6 ⟨0x600, 0x7FF#16, 8, .asyncRx⟩)
      fun n => Node.define me.toEnv n 10 ⟨0, 0x7FF#16, 0, .tx⟩) := by
  have h : Par (fun d => andThen (andThen (onNode (fun n => Node.define me.toEnv n 0 ⟨0x001, 0x7FF#16, 1, .rx false⟩) d)
    (onMon fun m => define me m 1 ⟨0x001, 0x7FF#16, 1, .rx false⟩))
    (onMon fun m => define me m 4 ⟨0x002, 0x7FF#16, 8, .rx false⟩)) (fun n => Node.define me.toEnv n 0 ⟨0x001, 0x7FF#16, 1, .rx false⟩) := by
    have := Par.andThen (Par.andThen (Par.node fun n => Node.define me.toEnv n 0 ⟨0x001, 0x7FF#16, 1, .rx false⟩)
      (onMon_par (fun m => define me m 1 ⟨0x001, 0x7FF#16, 1, .rx false⟩) fun m => define_acc hm _ _ _))
      (onMon_par (fun m => define me m 4 ⟨0x002, 0x7FF#16, 8, .rx false⟩) fun m => define_acc hm _ _ _)
    intro d
    have := this d
    dsimp only at this
    rw [thenOk_ret, thenOk_ret] at this
    exact this
  exact (((h.andThen (Par.node _)).andThen (Par.node _)).andThen (Par.node _)).andThen (Par.node _)

theorem init_twin {me : MonEnv} (hm : ∀ k, me.monOk k = true) (d : Mon) (baud : Nat) :
    (init me d baud).1.s = (Slave.init me.toEnv d.s baud).1 ∧ (init me d baud).2 = (Slave.init me.toEnv d.s baud).2 := by
  rw [init_eq]
  unfold Slave.init
  rw [nodeInit_eq]
  obtain ⟨a, b⟩ := initDefs_par hm (initMon me d baud)
  have e : (initMon me d baud).s = { d.s with node := initNode me.toEnv d.s.node, link := { d.s.link with startup := baud } } := rfl
  rw [e] at a b
  dsimp only at a b
  generalize initDefs me (initMon me d baud) = q at *
  generalize thenOk (thenOk (thenOk (thenOk (Node.define me.toEnv (initNode me.toEnv d.s.node) 0 ⟨0x001, 0x7FF#16, 1, .rx false⟩)
      fun n => Node.define me.toEnv n 2 ⟨0x002, 0x7FF#16, 8, .rx false⟩)
      fun n => if me.sysObj2 then Node.define me.toEnv n 3 ⟨0x002, 0x7FF#16, 8, .rx false⟩ else (n, E.ok))
      fun n => Node.define me.toEnv n 6 ⟨0x600, 0x7FF#16, 8, .asyncRx⟩)
      (fun n => Node.define me.toEnv n 10 ⟨0, 0x7FF#16, 0, .tx⟩) = p at *
  unfold andThen
  dsimp only
  rw [a]
  split
  · dsimp only; rw [b]; exact ⟨rfl, rfl⟩
  · exact ⟨b, a⟩

/-! ## Link -/

theorem setBaud1_link (b t : Nat) (ht : t = 250 ∨ t = 125 ∨ t = 500 ∨ t = 1000) (r : (Link × MonVars) × Err) (q : Link × Err)
    (h : r.1.1 = q.1) (h2 : r.2 = q.2) : (setBaud1 b r t).1.1 = (Slave.setBaud1 b q t).1 ∧ (setBaud1 b r t).2 = (Slave.setBaud1 b q t).2 := by
  unfold setBaud1 Slave.setBaud1
  split
  · dsimp only
    rw [h]
    generalize hwSetBaud { q.1 with cur := t } t = x
    split
    · next hx =>
      have : (monBaud x.1 r.1.2 t).2 = E.ok := by unfold monBaud; rw [if_pos (by omega)]
      rw [if_pos this]
      exact ⟨rfl, by rw [hx]; exact this⟩
    · exact ⟨rfl, rfl⟩
  · exact ⟨h, h2⟩

theorem setBaud_link (d : Mon) (b : Nat) : (setBaud d b).1.s = { d.s with link := (Slave.setBaud d.s.link b).1 } ∧
    (setBaud d b).2 = (Slave.setBaud d.s.link b).2 := by
  have key : ∀ (ts : List Nat), (∀ t ∈ ts, t = 250 ∨ t = 125 ∨ t = 500 ∨ t = 1000) → ∀ (r : (Link × MonVars) × Err) (q : Link × Err),
      r.1.1 = q.1 → r.2 = q.2 → (ts.foldl (setBaud1 b) r).1.1 = (ts.foldl (Slave.setBaud1 b) q).1 ∧
        (ts.foldl (setBaud1 b) r).2 = (ts.foldl (Slave.setBaud1 b) q).2 := by
    intro ts
    induction ts with
    | nil => intro _ r q h1 h2; exact ⟨h1, h2⟩
    | cons t ts ih =>
      intro ht r q h1 h2
      obtain ⟨a, c⟩ := setBaud1_link b t (ht t (by simp)) r q h1 h2
      exact ih (fun x hx => ht x (by simp [hx])) _ _ a c
  obtain ⟨a, c⟩ := key bdrTab (by unfold bdrTab; simp) ((d.s.link, d.m), E.ok) (d.s.link, E.ok) rfl rfl
  unfold setBaud Slave.setBaud
  dsimp only
  rw [a]
  exact ⟨rfl, c⟩

theorem slaveMode_ok {env : Env} (h : ∀ k, env.modeOk k = true) (l : Link) (m : Mode) : (Slave.setMode env l m).2 = E.ok := by
  unfold Slave.setMode
  have : ∀ l m, (drvMode env l m).2 = E.ok := by
    intro l m; unfold drvMode; simp [h]
  dsimp only
  split
  · exact this _ _
  · split
    · exact this _ _
    · exact this _ _

theorem changeBaud_link {me : MonEnv} (h : ∀ k, me.modeOk k = true) (d : Mon) (b : Nat) :
    (changeBaud me d b).1.s = { d.s with link := (Slave.changeBaud me.toEnv d.s.link b).1 } ∧
    (changeBaud me d b).2 = (Slave.changeBaud me.toEnv d.s.link b).2 := by
  unfold changeBaud Slave.changeBaud
  dsimp only
  rw [if_pos (slaveMode_ok h _ _)]
  have e : (setMode me d .stopped).2 = E.ok := rfl
  rw [if_pos e]
  obtain ⟨a, c⟩ := setBaud_link (setMode me d .stopped).1 b
  generalize setBaud (setMode me d .stopped).1 b = q at *
  have e : (setMode me d .stopped).1.s = { d.s with link := (Slave.setMode me.toEnv d.s.link .stopped).1 } := rfl
  rw [e] at a c
  dsimp only at a c
  rw [c]
  split
  · unfold setMode
    dsimp only
    rw [a]
    exact ⟨rfl, (slaveMode_ok h _ _).symm⟩
  · exact ⟨a, c⟩

/-! ## System messages -/

theorem sysMsg_main {me : MonEnv} (hm : ∀ k, me.monOk k = true) (hd : ∀ k, me.modeOk k = true) {d : Mon} {nr dlc : Nat} {src : List Byte}
    {r : Mon × Err} (h : sysMsg me d nr dlc src = some r) : Slave.sysMsg me.toEnv d.s nr dlc src = some (r.1.s, r.2) := by
  have lf : ∀ {r : Mon × Err}, ((Slave.sysMsg me.toEnv d.s nr dlc src).map fun r => (({ d with s := r.1 } : Mon), r.2)) = some r →
      Slave.sysMsg me.toEnv d.s nr dlc src = some (r.1.s, r.2) := by
    intro r h
    obtain ⟨x, hx, rfl⟩ := Option.map_eq_some_iff.1 h
    exact hx
  unfold sysMsg at h
  dsimp only at h
  split at h
  · exact lf h
  split at h
  · exact lf h
  split at h
  · exact lf h
  next h8 hfd hn1 =>
  have h8 : dlc = 8 := by omega
  subst h8
  split at h
  · next hc =>
    obtain ⟨h0, rfl⟩ := hc
    cases h
    unfold Slave.sysMsg
    dsimp only
    rw [if_neg (by omega), if_neg (by simp), if_neg hn1, h0]
    simp only [ne_eq, not_true, if_false]
    obtain ⟨a, c⟩ := changeBaud_link hd d (at8 src 1 * 256 + at8 src 2)
    rw [a, c]
  split at h
  · next hc =>
    obtain ⟨h0, hnr⟩ := hc
    have hd' : Slave.sysMsg me.toEnv d.s nr 8 src = some (sysSilentAwake me.toEnv d.s src nr (at8 src 0 - 0x21)) := by
      unfold Slave.sysMsg
      dsimp only
      rw [if_neg (by omega), if_neg (by rw [if_neg hnr]; exact hfd), if_neg hn1]
      rcases h0 with h0 | h0
      · rw [h0]; simp only [if_neg hnr]
      · rw [h0]; simp only [if_neg hnr]
    rw [hd']
    unfold sysSilentAwake
    by_cases hs : me.serial = serialOf src
    · rw [if_pos hs]
      cases hf : d.s.node.findNr me.toEnv nr with
      | none => exact absurd ⟨hnr, hf⟩ hfd
      | some tp =>
        dsimp only
        by_cases ht : (d.s.node.rows tp).typ.take 4 = typeOf src
        · have : sysTarget me.toEnv d.s src nr = some tp := by unfold sysTarget; rw [if_pos hs, hf]; simp [Option.filter, ht]
          rw [this] at h
          cases h
          rw [if_pos ht]
          rfl
        · have : sysTarget me.toEnv d.s src nr = none := by unfold sysTarget; rw [if_pos hs, hf]; simp [Option.filter, ht]
          rw [this] at h
          cases h
          rw [if_neg ht]
    · have : sysTarget me.toEnv d.s src nr = none := by unfold sysTarget; rw [if_neg hs]
      rw [this] at h
      cases h
      rw [if_neg hs]
  split at h
  · next hc =>
    obtain ⟨h0, hnr, hs⟩ := hc
    cases hf : d.s.node.findNr me.toEnv nr with
    | none => rw [hf] at h; exact lf h
    | some tp =>
      rw [hf] at h
      cases h
      unfold Slave.sysMsg
      dsimp only
      rw [if_neg (by omega), if_neg (by rw [if_neg hnr]; exact hfd), if_neg hn1, h0, if_neg hnr, hf]
      simp only [if_pos hs]
      obtain ⟨a, c⟩ := changeModuleNr_par hm tp (at8 src 2) d
      dsimp only at a c
      rw [a, c]
  exact lf h

theorem checkImage_per (me : MonEnv) (d : Mon) (now : Nat) : (checkImage me d now).s.sync.periode = d.s.sync.periode := by
  obtain ⟨v, mt, er, a, b, c, e, -⟩ := checkFold now (List.range d.s.node.nrMod) d true
  unfold checkImage
  split
  · split
    · rfl
    · split
      · rfl
      · split
        · rfl
        · split
          · rfl
          · dsimp only
            rw [e]
            dsimp only
            split
            · unfold clearImage Slave.clearImage callOpt
              dsimp only
              simp only [callOpt_sync]
              rfl
            · rfl
  · rfl

theorem handlerMon_sync (me : MonEnv) (d : Mon) (now obj dlc id : Nat) (data : List Byte) :
    (handlerMon me d now obj dlc id data).s.link = d.s.link ∧ (handlerMon me d now obj dlc id data).s.sys = d.s.sys ∧
    (handlerMon me d now obj dlc id data).s.sync.cycle = d.s.sync.cycle ∧
    (handlerMon me d now obj dlc id data).s.sync.stamp = d.s.sync.stamp ∧
    (handlerMon me d now obj dlc id data).s.sync.periode = d.s.sync.periode := by
  rw [handlerMon_eq]
  have k := (monRxPart_kept me d obj dlc id data).trans (monTxPart_kept me (monRxPart me d obj dlc id data) obj dlc id data)
  generalize monTxPart me (monRxPart me d obj dlc id data) obj dlc id data = d1 at *
  dsimp only
  split
  · have c := checkImage_kept me d1 now
    have p := checkImage_per me d1 now
    have h1 := c.link; have h2 := c.sys; have h3 := c.cycle; have h4 := c.stamp
    rw [k.s] at h1 h2 h3 h4 p
    exact ⟨h1, h2, h3, h4, p⟩
  · rw [k.s]; exact ⟨rfl, rfl, rfl, rfl, rfl⟩

/-! ## One input -/

/-- what the same input does to a slave without monitor -/
def alone (env : Env) (s : Slave) : MIn → Option Slave
  | .main now obj dlc id data => Slave.step env s (.frame now obj dlc id data)
  | .mon _ _ _ _ _ => some s
  | .write p v => some { s with node := { s.node with mem := upd s.node.mem p v } }
  | .add tpl _ nr rx tx => Slave.step env s (.table (.add tpl nr rx tx))
  | .silentAwakeBy typ nr st => Slave.step env s (.table (.silentAwakeBy typ nr st))
  | .setActive typ => Slave.step env s (.table (.setActive typ))
  | .setCritical typ => Slave.step env s (.table (.setCritical typ))
  | .changeNr typ nr act => Slave.step env s (.table (.changeNr typ nr act))
  | .setMode m => Slave.step env s (.setMode m)
  | .setBaud b => Slave.step env s (.setBaud b)
  | .trigger now => Slave.step env s (.trigger now)
  | .setCycle t => Slave.step env s (.setCycle t)
  | .allCb f => Slave.step env s (.allCb f)
  | .validCb typ nr f => Slave.step env s (.validCb typ nr f)
  | .invalidCb typ nr f => Slave.step env s (.invalidCb typ nr f)
  | .reqCb typ nr f => Slave.step env s (.reqCb typ nr f)

theorem request_twin {me : MonEnv} {d d' : Mon} {b : Slave} (h : Twin d.s b) {now dlc : Nat} (hr : processRequest me d now dlc = some d') :
    ∃ b', Slave.processRequest me.toEnv b now dlc = some b' ∧ Twin d'.s b' := by
  have e : (processRequest me d now dlc).map (·.s) = reqTail me.toEnv (checkImage me { d with s := reqRx d.s } now).s now dlc := by
    unfold processRequest reqTail
    dsimp only
    generalize checkImage me { d with s := reqRx d.s } now = k
    cases k.s.node.sendProcessData me.toEnv with
    | none => rfl
    | some n =>
      dsimp only
      split <;> rfl
  have e' : Slave.processRequest me.toEnv b now dlc = reqTail me.toEnv (Slave.checkImage me.toEnv (reqRx b) now) now dlc := rfl
  rw [hr] at e
  rw [e']
  refine reqTail_twin me.toEnv ?_ now dlc e.symm
  obtain ⟨q1, q2, q3, q4, q5, q6⟩ := reqRx_calls d.s
  obtain ⟨p1, p2, p3, p4, p5, p6⟩ := reqRx_calls b
  have k1 := checkImage_calls me { d with s := reqRx d.s } now
  have k2 := checkImage_kept me { d with s := reqRx d.s } now
  have k3 := checkImage_per me { d with s := reqRx d.s } now
  obtain ⟨c1, c2, c3, c4, c5, c6⟩ := Slave.checkImage_calls me.toEnv (reqRx b) now
  refine ⟨(((h.node.left q1).left k1).right p1).right c1, ?_, ?_, ?_, ?_, ?_⟩
  · rw [c2, p2, k2.link, h.link]; exact q2.symm
  · rw [c3, p3, k2.sys, h.sys]; exact q3.symm
  · rw [c4, p4, k2.cycle, h.cyc]; exact q4.symm
  · rw [c5, p5, k2.stamp, h.stamp]; exact q5.symm
  · rw [c6, p6, k3, h.per]; exact q6.symm

/-- the registration, if the input is one, is completed -/
def Registered (me : MonEnv) (d : Mon) : MIn → Prop
  | .add tpl mt nr rx tx => regErr me d tpl mt nr rx tx = E.ok
  | _ => True

theorem step_twin {me : MonEnv} (hm : ∀ k, me.monOk k = true) (hd : ∀ k, me.modeOk k = true) {d d' : Mon} {b : Slave} (h : Twin d.s b)
    {i : MIn} (hr : Registered me d i) (hs : step me d i = some d') : ∃ b', alone me.toEnv b i = some b' ∧ Twin d'.s b' := by
  have lf : ∀ {x : In}, lift me d x = some d' → Slave.step me.toEnv d.s x = some d'.s := by
    intro x hx
    obtain ⟨y, hy, rfl⟩ := Option.map_eq_some_iff.1 hx
    exact hy
  have cb : ∀ (typ : List Byte) (nr : Nat) (f : SyncVars → Nat → SyncVars), (∀ v t, (f v t).cycle = v.cycle ∧ (f v t).stamp = v.stamp ∧ (f v t).periode = v.periode) →
      some (setModCb me.toEnv d.s typ nr f).1 = some d'.s → Twin d'.s (setModCb me.toEnv b typ nr f).1 := by
    intro typ nr f hf he
    have he := Option.some.inj he
    rw [← he]
    unfold setModCb
    have : b.node.findTypeNr me.toEnv typ nr = d.s.node.findTypeNr me.toEnv typ nr := by unfold findTypeNr; rw [h.node.rows]
    rw [this]
    cases d.s.node.findTypeNr me.toEnv typ nr with
    | none => exact h
    | some tp => exact ⟨h.node, h.link, h.sys, by rw [(hf _ _).1, (hf _ _).1, h.cyc], by rw [(hf _ _).2.1, (hf _ _).2.1, h.stamp], by rw [(hf _ _).2.2, (hf _ _).2.2, h.per]⟩
  cases i with
  | main now obj dlc id data =>
    change handlerMain me d now obj dlc id data = some d' at hs
    show ∃ b', Slave.handlerRx me.toEnv b now obj dlc id data = some b' ∧ _
    rw [handlerMain_eq] at hs
    rw [handlerRx_eq]
    dsimp only at hs
    have h1 := dataPart_twin me.toEnv h obj dlc id data
    generalize dataPart me.toEnv d.s obj dlc id data = a1 at *
    generalize dataPart me.toEnv b obj dlc id data = b1 at *
    have h2 : ∀ d2, (if obj = 0 then processRequest me { d with s := a1 } now dlc else some { d with s := a1 }) = some d2 →
        ∃ b2, reqPart me.toEnv b1 now obj dlc = some b2 ∧ Twin d2.s b2 := by
      intro d2 hd2
      unfold reqPart
      split at hd2
      · next h0 => rw [if_pos h0]; exact request_twin (d := { d with s := a1 }) h1 hd2
      · next h0 => rw [if_neg h0]; cases hd2; exact ⟨_, rfl, h1⟩
    split at hs
    · next ho =>
      rw [if_pos ho]
      obtain ⟨d2, hd2, hs⟩ := Option.bind_eq_some_iff.1 hs
      obtain ⟨b2, hb2, t2⟩ := h2 d2 hd2
      rw [hb2]
      obtain ⟨r, hr, rfl⟩ := Option.map_eq_some_iff.1 hs
      obtain ⟨b3, hb3, t3⟩ := sysMsg_twin me.toEnv t2 _ _ _ (sysMsg_main hm hd hr)
      refine ⟨_, ?_, t3.report me.toEnv r.2⟩
      show Option.map _ _ = _
      rw [hb3]
      rfl
    · next ho =>
      rw [if_neg ho]
      exact h2 d' hs
  | mon now obj dlc id data =>
    cases hs
    refine ⟨b, rfl, ?_⟩
    have k := handlerMon_calls me d now obj dlc id data
    obtain ⟨x1, x2, x3, x4, x5⟩ := handlerMon_sync me d now obj dlc id data
    exact ⟨h.node.left k, by rw [x1, h.link], by rw [x2, h.sys], by rw [x3, h.cyc], by rw [x4, h.stamp], by rw [x5, h.per]⟩
  | write p v =>
    cases hs
    exact ⟨_, rfl, h.node.preN (f := fun n => { n with mem := upd n.mem p v }) (fun _ _ => rfl), h.link, h.sys, h.cyc, h.stamp, h.per⟩
  | add tpl mt nr rx tx =>
    cases hs
    refine ⟨_, rfl, ?_⟩
    rw [addModule_same me d tpl mt nr rx tx hr]
    exact h.table (addModule_pre me.toEnv tpl nr rx tx)
  | silentAwakeBy typ nr st =>
    refine ⟨_, rfl, ?_⟩
    have : b.node.findTypeNr me.toEnv typ nr = d.s.node.findTypeNr me.toEnv typ nr := by unfold findTypeNr; rw [h.node.rows]
    show Twin d'.s { b with node := (Node.setSilentAwakeBy me.toEnv b.node typ nr st).1 }
    unfold Node.setSilentAwakeBy
    rw [this]
    unfold step at hs
    dsimp only at hs
    cases hf : d.s.node.findTypeNr me.toEnv typ nr with
    | none => rw [hf] at hs; cases hs; exact h
    | some tp => rw [hf] at hs; cases hs; exact h.table (setSilentAwake_pre me.toEnv tp st)
  | setActive typ =>
    refine ⟨_, rfl, ?_⟩
    have : b.node.findType me.toEnv typ = d.s.node.findType me.toEnv typ := by unfold findType; rw [h.node.rows]
    show Twin d'.s { b with node := (Node.setActive me.toEnv b.node typ).1 }
    unfold Node.setActive
    rw [this]
    unfold step at hs
    dsimp only at hs
    cases hf : d.s.node.findType me.toEnv typ with
    | none => rw [hf] at hs; cases hs; exact h
    | some tp => rw [hf] at hs; cases hs; exact ⟨h.node.preN (syncOn_pre tp), h.link, h.sys, h.cyc, h.stamp, h.per⟩
  | setCritical typ =>
    refine ⟨_, rfl, ?_⟩
    have : b.node.findType me.toEnv typ = d.s.node.findType me.toEnv typ := by unfold findType; rw [h.node.rows]
    show Twin d'.s { b with node := (Node.setCritical me.toEnv b.node typ).1 }
    unfold Node.setCritical
    rw [this]
    unfold step at hs
    dsimp only at hs
    cases hf : d.s.node.findType me.toEnv typ with
    | none => rw [hf] at hs; cases hs; exact h
    | some tp => rw [hf] at hs; cases hs; exact ⟨h.node.preN (syncOff_pre me.toEnv tp), h.link, h.sys, h.cyc, h.stamp, h.per⟩
  | changeNr typ nr act =>
    cases hs
    refine ⟨_, rfl, ?_⟩
    rw [(changeNr_par hm typ nr act d).2]
    exact h.table (changeNr_pre me.toEnv typ nr act)
  | setMode m =>
    cases hs
    refine ⟨_, rfl, h.node, ?_, h.sys, h.cyc, h.stamp, h.per⟩
    dsimp only
    rw [h.link]; rfl
  | setBaud x =>
    cases hs
    refine ⟨_, rfl, ?_⟩
    rw [(setBaud_link d x).1]
    refine ⟨h.node, ?_, h.sys, h.cyc, h.stamp, h.per⟩
    dsimp only
    rw [h.link]
  | trigger now =>
    have he := Option.some.inj (lf hs)
    refine ⟨_, rfl, ?_⟩
    rw [← he]
    unfold Slave.trigger
    dsimp only
    rw [h.stamp, h.per]
    generalize me.t2ms (if u16 (me.ms2t me.perMax) < sub32 now d.s.sync.stamp then u16 (me.ms2t me.perMax) else sub32 now d.s.sync.stamp) = x
    split
    · exact ⟨h.node, h.link, h.sys, h.cyc, rfl, rfl⟩
    · exact h
  | setCycle t =>
    have he := Option.some.inj (lf hs)
    refine ⟨_, rfl, ?_⟩
    rw [← he]
    unfold Slave.setCycle
    split
    · exact ⟨h.node, h.link, h.sys, rfl, h.stamp, h.per⟩
    · exact ⟨h.node, h.link, h.sys, rfl, h.stamp, h.per⟩
  | allCb f =>
    have he := Option.some.inj (lf hs)
    refine ⟨_, rfl, ?_⟩
    rw [← he]
    exact ⟨h.node, h.link, h.sys, h.cyc, h.stamp, h.per⟩
  | validCb typ nr f => exact ⟨_, rfl, cb typ nr _ (fun _ _ => ⟨rfl, rfl, rfl⟩) (lf hs)⟩
  | invalidCb typ nr f => exact ⟨_, rfl, cb typ nr _ (fun _ _ => ⟨rfl, rfl, rfl⟩) (lf hs)⟩
  | reqCb typ nr f => exact ⟨_, rfl, cb typ nr _ (fun _ _ => ⟨rfl, rfl, rfl⟩) (lf hs)⟩

/-! ## An input from which the stack does not return -/

theorem sendProcessData_none (env : Env) {a b : Node} (h : Alike a b) (hn : sendProcessData env a = none) : sendProcessData env b = none := by
  obtain ⟨h1, h2⟩ := h.prep
  generalize a.log = la at *
  generalize b.log = lb at *
  generalize ({ a with log := [] } : Node) = c at *
  subst h1 h2
  rw [sendProcessData_pre] at hn ⊢
  rw [Option.map_eq_none_iff] at hn ⊢
  exact hn

theorem sysMsg_none (env : Env) {a b : Slave} (h : Twin a b) (nr dlc : Nat) (src : List Byte) (hr : Slave.sysMsg env a nr dlc src = none) :
    Slave.sysMsg env b nr dlc src = none := by
  obtain ⟨c, la, lb, ha, hb, -⟩ := h.sprep
  generalize a.sync = va at *
  generalize b.sync = vb at *
  subst ha hb
  rw [sysMsg_spre] at hr ⊢
  rw [Option.map_eq_none_iff] at hr ⊢
  exact hr

theorem sysMsg_main_none {me : MonEnv} {d : Mon} {nr dlc : Nat} {src : List Byte} (h : sysMsg me d nr dlc src = none) :
    Slave.sysMsg me.toEnv d.s nr dlc src = none := by
  unfold sysMsg at h
  dsimp only at h
  have lf : ((Slave.sysMsg me.toEnv d.s nr dlc src).map fun r => (({ d with s := r.1 } : Mon), r.2)) = none →
      Slave.sysMsg me.toEnv d.s nr dlc src = none := fun h => Option.map_eq_none_iff.1 h
  split at h
  · exact lf h
  split at h
  · exact lf h
  split at h
  · exact lf h
  split at h
  · cases h
  split at h
  · split at h <;> cases h
  split at h
  · split at h
    · cases h
    · exact lf h
  exact lf h

theorem request_twin_none {me : MonEnv} {d : Mon} {b : Slave} (h : Twin d.s b) {now dlc : Nat} (hr : processRequest me d now dlc = none) :
    Slave.processRequest me.toEnv b now dlc = none := by
  obtain ⟨q1, -⟩ := reqRx_calls d.s
  obtain ⟨p1, -⟩ := reqRx_calls b
  have k1 := checkImage_calls me { d with s := reqRx d.s } now
  obtain ⟨c1, -⟩ := Slave.checkImage_calls me.toEnv (reqRx b) now
  have al := (((h.node.left q1).left k1).right p1).right c1
  unfold processRequest at hr
  unfold Slave.processRequest
  dsimp only at hr ⊢
  generalize checkImage me { d with s := reqRx d.s } now = k at *
  generalize Slave.checkImage me.toEnv (reqRx b) now = c at *
  cases hk : k.s.node.sendProcessData me.toEnv with
  | none => rw [sendProcessData_none me.toEnv al hk]
  | some n =>
    rw [hk] at hr
    dsimp only at hr
    split at hr <;> cases hr

theorem step_twin_none {me : MonEnv} {d : Mon} {b : Slave} (h : Twin d.s b)
    {i : MIn} (hs : step me d i = none) : alone me.toEnv b i = none := by
  cases i with
  | main now obj dlc id data =>
    change handlerMain me d now obj dlc id data = none at hs
    show Slave.handlerRx me.toEnv b now obj dlc id data = none
    rw [handlerMain_eq] at hs
    rw [handlerRx_eq]
    dsimp only at hs
    have h1 := dataPart_twin me.toEnv h obj dlc id data
    generalize dataPart me.toEnv d.s obj dlc id data = a1 at *
    generalize dataPart me.toEnv b obj dlc id data = b1 at *
    have h2 : ∀ d2, (if obj = 0 then processRequest me { d with s := a1 } now dlc else some { d with s := a1 }) = some d2 →
        ∃ b2, reqPart me.toEnv b1 now obj dlc = some b2 ∧ Twin d2.s b2 := by
      intro d2 hd2
      unfold reqPart
      split at hd2
      · next h0 => rw [if_pos h0]; exact request_twin (d := { d with s := a1 }) h1 hd2
      · next h0 => rw [if_neg h0]; cases hd2; exact ⟨_, rfl, h1⟩
    have h3 : (if obj = 0 then processRequest me { d with s := a1 } now dlc else some { d with s := a1 }) = none →
        reqPart me.toEnv b1 now obj dlc = none := by
      intro hd2
      unfold reqPart
      split at hd2
      · next h0 => rw [if_pos h0]; exact request_twin_none (d := { d with s := a1 }) h1 hd2
      · cases hd2
    split at hs
    · next ho =>
      rw [if_pos ho]
      cases hq : (if obj = 0 then processRequest me { d with s := a1 } now dlc else some { d with s := a1 }) with
      | none => rw [h3 hq]; rfl
      | some d2 =>
        obtain ⟨b2, hb2, t2⟩ := h2 d2 hq
        rw [hq] at hs
        rw [hb2]
        have hs := Option.map_eq_none_iff.1 hs
        show Option.map _ _ = none
        rw [sysMsg_none me.toEnv t2 _ _ _ (sysMsg_main_none hs)]
        rfl
    · next ho => rw [if_neg ho]; exact h3 hs
  | silentAwakeBy typ nr st =>
    unfold step at hs
    dsimp only at hs
    cases hf : d.s.node.findTypeNr me.toEnv typ nr <;> (rw [hf] at hs; cases hs)
  | setActive typ =>
    unfold step at hs
    dsimp only at hs
    cases hf : d.s.node.findType me.toEnv typ <;> (rw [hf] at hs; cases hs)
  | setCritical typ =>
    unfold step at hs
    dsimp only at hs
    cases hf : d.s.node.findType me.toEnv typ <;> (rw [hf] at hs; cases hs)
  | _ => cases hs

end Mon
end LiCan
