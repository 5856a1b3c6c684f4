import Verif.Model.MonSearch
import Verif.Props.Operation
/-! # Two controllers and the baud rate search: what every function does -/
namespace LiCan

/-- the two controllers agree -/
structure Level (l : Link) (m : MonCtl) : Prop where
  rate : m.rate = l.hwRate
  op : l.mode = .operational → m.drv = .start
  li : l.mode = .listen → m.drv = .listen

namespace Level

theorem enable {l : Link} {m : MonCtl} (h : m.rate = l.hwRate) : Level l (m.enable l.mode) := by
  refine ⟨h, fun e => ?_, fun e => ?_⟩
  · show (if l.mode = .listen then DrvMode.listen else .start) = .start
    rw [e]; rfl
  · show (if l.mode = .listen then DrvMode.listen else .start) = .listen
    rw [e]; rfl

theorem setMode (env : Env) {l : Link} {m : MonCtl} (h : m.rate = l.hwRate) (md : Mode) : Level (Slave.setMode env l md).1 (m.enable md) := by
  obtain ⟨a, b, -⟩ := Slave.setMode_mode env l md
  have := enable (l := (Slave.setMode env l md).1) (m := m) (by rw [b]; exact h)
  rw [a] at this
  exact this

theorem setRate {l : Link} (m : MonCtl) {b : Nat} (hr : l.hwRate = b) : Level l (m.setRate l.mode b) := by
  refine ⟨hr.symm, fun e => ?_, fun e => ?_⟩
  · show (if l.mode = .operational then DrvMode.start else .listen) = .start
    rw [if_pos e]
  · show (if l.mode = .operational then DrvMode.start else .listen) = .listen
    rw [e]; rfl

theorem valid_rate {b : Nat} (h : Slave.baudValid b = true) : b = 125 ∨ b = 250 ∨ b = 500 ∨ b = 1000 := by
  simp only [Slave.baudValid, Slave.bdrTab, List.any_cons, List.any_nil, Bool.or_eq_true, Bool.or_false, beq_iff_eq] at h
  omega

theorem rate_valid {b : Nat} (h : b = 125 ∨ b = 250 ∨ b = 500 ∨ b = 1000) : Slave.baudValid b = true := by
  rcases h with h | h | h | h <;> subst h <;> rfl

theorem setBaud {l : Link} {m : MonCtl} (h : Level l m) (b : Nat) :
    Level (Slave.setBaud l b).1
      (if (Slave.setBaud l b).2 = E.ok ∧ Slave.baudValid b = true then m.setRate (Slave.setBaud l b).1.mode b else m) := by
  by_cases hb : b = 125 ∨ b = 250 ∨ b = 500 ∨ b = 1000
  · have hs := Slave.setBaud_supported l b (by rcases hb with e | e | e | e <;> subst e <;> decide)
    rw [hs]
    split
    · rw [if_pos ⟨rfl, rate_valid hb⟩]
      exact setRate (l := { l with cur := b, hwRate := b, stored := b, storedN := l.storedN + 1 }) m rfl
    · rw [if_neg (by rintro ⟨h, -⟩; exact absurd (show E.invalidBaudrate = E.ok from h) (by decide))]
      exact ⟨h.rate, h.op, h.li⟩
  · rw [Slave.setBaud_other l b hb, if_neg (fun x => hb (valid_rate x.2))]
    exact h

theorem changeBaud (env : AEnv) {l : Link} {m : MonCtl} (h : Level l m) (b : Nat) :
    Level (Duo.changeBaud env l m b).1.1 (Duo.changeBaud env l m b).1.2 := by
  unfold Duo.changeBaud
  dsimp only
  have h1 := setBaud (setMode env.toEnv h.rate .stopped) b
  generalize Slave.setBaud (Slave.setMode env.toEnv l .stopped).1 b = r at *
  split
  · exact setMode env.toEnv h1.rate _
  · exact h1

end Level

namespace Duo
open Spec

variable {env : AEnv}

/-- the two controllers agree -/
def Agree (d : Duo) : Prop := Level d.s.slv.link d.m

/-- at least on the rate -/
def SameRate (d : Duo) : Prop := d.m.rate = d.s.slv.link.hwRate

theorem Agree.of {d d' : Duo} (h : Agree d) (hl : d'.s.slv.link = d.s.slv.link) (hm : d'.m = d.m) : Agree d' := by
  unfold Agree; rw [hl, hm]; exact h

theorem Agree.mode (d : Duo) (h : SameRate d) (md : Mode) : Agree (d.nodeMode env md).1 := Level.setMode env.toEnv h md

theorem Agree.baud {d : Duo} (h : Agree d) (b : Nat) : Agree (d.baudRate env b).1 := Level.setBaud h b

theorem Agree.keep {d : Duo} (h : Agree d) {s' : Stack} (k : Stack.Keep d.s s') : Agree { d with s := s' } := h.of k.2 rfl

theorem Agree.next {d : Duo} (h : SameRate d) (now : Nat) : Agree (d.nextBaud env now) := by
  unfold nextBaud
  dsimp only
  have h0 : SameRate { d with m := d.m.disable } := h
  have h1 := Agree.mode (env := env) { d with m := d.m.disable } h0 .stopped
  generalize ((({ d with m := d.m.disable } : Duo)).nodeMode env .stopped).1 = d1 at h1 ⊢
  have h2 := h1.baud (env := env) (Stack.rcTab.getD (if d.s.rc.idx < 3 then d.s.rc.idx + 1 else 0) 0)
  generalize d1.baudRate env (Stack.rcTab.getD (if d.s.rc.idx < 3 then d.s.rc.idx + 1 else 0) 0) = r at h2 ⊢
  have h3 : Agree (if r.2 = E.ok then (r.1.nodeMode env .listen).1 else r.1) := by
    split
    · exact Agree.mode r.1 h2.rate .listen
    · exact h2
  generalize (if r.2 = E.ok then (r.1.nodeMode env .listen).1 else r.1) = d3 at h3 ⊢
  exact Level.enable (l := d3.s.slv.link) h3.rate

theorem Agree.on {d : Duo} (h : Agree d) (now : Nat) (f : Bool) : Agree (d.rcOn env now f) := by
  unfold rcOn
  dsimp only
  cases f with
  | true => exact h
  | false =>
    exact (Agree.next (env := env) (d := (({ d with s := { d.s with lcsa := .reconnect } } : Duo)).setR fun c => { c with bit0 := 0 }) h.rate now).of rfl rfl

theorem Agree.setR {d : Duo} (h : Agree d) (f : Recon → Recon) : Agree (d.setR f) := h

theorem rcDone_link (env : AEnv) (s : Stack) (b : Nat) : (s.rcDone env b).slv.link = s.slv.link := (Stack.rcDone_spec env s b).1.2

theorem Agree.ends {d : Duo} (h : Agree d) (now : Nat) : Agree (d.rcOff env now) := by
  unfold rcOff
  dsimp only
  have h0 : SameRate (({ d with m := d.m.disable } : Duo).setR fun c => { c with process := false }) := h.rate
  have h1 := Agree.mode (env := env) _ h0 .stopped
  generalize ((({ d with m := d.m.disable } : Duo).setR fun c => { c with process := false }).nodeMode env .stopped).1 = d1 at h1 ⊢
  have h2 := h1.baud (env := env) d.s.rc.back
  generalize d1.baudRate env d.s.rc.back = r at h2 ⊢
  have h3 : Agree (if r.2 = E.ok then r.1.nodeMode env .operational else r).1 := by
    split
    · exact Agree.mode r.1 h2.rate .operational
    · exact h2
  generalize (if r.2 = E.ok then r.1.nodeMode env .operational else r) = q at h3 ⊢
  have h4 : Agree (if q.2 = E.ok then { q.1 with s := { q.1.s with lcsa := .running } } else q.1) := by
    split
    · exact h3
    · exact h3
  generalize (if q.2 = E.ok then ({ q.1 with s := { q.1.s with lcsa := .running } } : Duo) else q.1) = d4 at h4 ⊢
  refine Agree.setR ?_ _
  split
  · exact Agree.of (h4.setR _) (rcDone_link env _ _) rfl
  · exact h4

theorem Agree.switch {d : Duo} (h : Agree d) (now : Nat) : Agree (d.rcSwitch env now) := by
  unfold rcSwitch
  split
  · exact (Agree.next h.rate now).setR _
  · exact h

theorem Agree.turn {d : Duo} (h : Agree d) (now : Nat) (p : Pending) (lec : Lec) : Agree (d.rcProcess env now p lec) := by
  unfold rcProcess
  split
  · exact h
  split
  · split
    · exact (h.setR _).ends now
    split
    · exact (h.setR _).ends now
    split
    · exact (h.setR _).on now false
    split
    · exact .next h.rate now
    · exact h
  · split
    · exact h.ends now
    split
    · exact h.switch now
    split
    · exact h.ends now
    · dsimp only
      split
      · exact (h.setR _).ends now
      · exact h.setR _
    · split
      · exact h.ends now
      · exact h
    · exact (h.setR _).switch now
  · dsimp only
    split
    · exact (h.setR _).setR _
    · exact h.setR _
  · exact h

theorem notify_link (s : Stack) (f : Option Nat) (c : Nat → ACall) : (s.notify f c).slv.link = s.slv.link := (Stack.notify_keep s f c).2

theorem Agree.error {d : Duo} (h : Agree d) (now : Nat) (c : RCause) : Agree (d.rcError env now c) := by
  unfold rcError
  split
  · dsimp only
    refine Agree.on (Agree.setR ?_ _) now false
    have h1 : Agree { d with s := d.s.notify d.s.rc.onStart .onStart } := h.of (notify_link ..) rfl
    exact Agree.mode _ (Agree.mode _ h1.rate .stopped).rate .listen
  · exact h

theorem Agree.busOff {d : Duo} (h : Agree d) (now : Nat) (bus : Stack.BusState) (lec : Lec) : Agree (d.hwBusOff env now bus lec) := by
  unfold hwBusOff
  split
  · exact Agree.error (Agree.mode _ (Agree.mode _ h.rate .stopped).rate .listen) now _
  · exact h

theorem drvMode_mode (env : Env) (l : Link) (x : DrvMode) : (Slave.drvMode env l x).1.mode = l.mode ∧ (Slave.drvMode env l x).1.hwRate = l.hwRate := by
  unfold Slave.drvMode
  split <;> exact ⟨rfl, rfl⟩

theorem Agree.passive {d : Duo} (h : Agree d) (now : Nat) (bus : Stack.BusState) : Agree (d.hwPassive env now bus) := by
  unfold hwPassive
  split
  · obtain ⟨a, b⟩ := drvMode_mode env.toEnv d.s.slv.link .listen
    refine Agree.error ?_ now _
    generalize (Slave.drvMode env.toEnv d.s.slv.link .listen).1 = l at a b ⊢
    show Level l d.m
    exact ⟨by rw [b]; exact h.rate, by rw [a]; exact h.op, by rw [a]; exact h.li⟩
  · exact h

theorem Agree.process {d : Duo} (h : Agree d) (now : Nat) (bus : Stack.BusState) (lec : Lec) : Agree (d.process env now bus lec) := by
  unfold Duo.process
  dsimp only
  refine Agree.keep ?_ (Stack.Keep.processTx env _ now)
  obtain ⟨p, hp⟩ := Slave.trigger_eq env.toEnv d.s.slv now
  rw [hp]
  have h : Agree { d with s := { d.s with slv := { d.s.slv with sync := { d.s.slv.sync with periode := p } } } } := h.of rfl rfl
  generalize ({ d with s := { d.s with slv := { d.s.slv with sync := { d.s.slv.sync with periode := p } } } } : Duo) = d at h ⊢
  unfold hwError
  dsimp only
  have h1 : Agree (if (bus ≠ .active ∨ lec ≠ .none) ∧ d.s.rc.state = .off then (d.hwBusOff env now bus lec).hwPassive env now bus else d) := by
    split
    · exact (h.busOff now bus lec).passive now bus
    · exact h
  generalize (if (bus ≠ .active ∨ lec ≠ .none) ∧ d.s.rc.state = .off then (d.hwBusOff env now bus lec).hwPassive env now bus else d) = t at h1 ⊢
  split
  · exact h1.turn now _ lec
  · exact h1

theorem Agree.startup {d : Duo} (h : Agree d) (now : Nat) : Agree (d.rcStartup env now) := by
  unfold rcStartup
  split
  · dsimp only
    have h1 : Agree { d with s := d.s.notify d.s.rc.suStart .suStart } := h.of (notify_link ..) rfl
    exact (h1.setR _).on now true
  · exact h

theorem Agree.start {d : Duo} (h : Agree d) (now : Nat) : Agree (d.start env now).1 := by
  unfold Duo.start
  have key : ∀ r : Duo × Err, Agree r.1 →
      Agree (if r.2 = E.ok then ({ r.1 with s := { r.1.s.startAck env with lcsa := .running } }, E.ok) else r).1 := by
    intro r h
    split
    · exact h.of (Stack.startAck_keep env r.1.s).2 rfl
    · exact h
  refine key _ ?_
  split
  · dsimp only
    have h1 := Agree.mode (env := env) (d.setR fun c => { c with state := .off }) h.rate .stopped
    generalize ((d.setR fun c => { c with state := .off }).nodeMode env .stopped).1 = d1 at h1 ⊢
    have h2 := h1.baud (env := env) d1.s.slv.link.startup
    generalize (d1.baudRate env d1.s.slv.link.startup).1 = d2 at h2 ⊢
    have h3 := Agree.mode (env := env) (d2.setR fun c => { c with cause := .download }) h2.rate .operational
    generalize (d2.setR fun c => { c with cause := .download }).nodeMode env .operational = r at h3 ⊢
    split
    · exact h3
    · exact h3
  · dsimp only
    have h1 := Agree.mode (env := env) (d.setR fun c => { c with state := .startup }) h.rate .stopped
    generalize ((d.setR fun c => { c with state := .startup }).nodeMode env .stopped).1 = d1 at h1 ⊢
    have h2 := h1.baud (env := env) d1.s.slv.link.startup
    generalize (d1.baudRate env d1.s.slv.link.startup).1 = d2 at h2 ⊢
    exact Agree.mode _ (h2.startup now).rate .listen

theorem sysMsg_same {env : Env} {w s2 : Slave} {nr dlc : Nat} {data : List Byte} {e : Err} (h2 : Slave.at8 data 0 = 0x02)
    (hx : ¬ (dlc = 8 ∧ nr = 1 ∧ w.node.nrMod ≠ 0)) (h : Slave.sysMsg env w nr dlc data = some (s2, e)) : s2.link = w.link := by
  have triv : ∀ {y : Err}, some (w, y) = some (s2, e) → s2.link = w.link := by
    intro y h
    have := congrArg Prod.fst (Option.some.inj h)
    simp only at this
    rw [← this]
  unfold Slave.sysMsg at h
  dsimp only at h
  generalize (if nr = 1 then none else w.node.findNr env nr) = dst at h
  by_cases h8 : dlc = 8
  · rw [if_neg (fun k => k h8)] at h
    by_cases h1 : nr = 1
    · rw [if_neg (fun k => k.1 h1)] at h
      have : w.node.nrMod = 0 := Classical.byContradiction fun k => hx ⟨h8, h1, k⟩
      rw [if_pos ⟨h1, this⟩] at h
      exact triv h
    · split at h
      · exact triv h
      rw [if_neg (fun k => h1 k.1), h2] at h
      simp only at h
      exact triv h
  · rw [if_pos h8] at h
    exact triv h

/-- a frame that is no baud rate message leaves the link alone -/
theorem handlerRx_same {s : Stack} {v : Slave} {now obj dlc id : Nat} {data : List Byte} (hn : ¬ isBaudMsg env s obj dlc id data)
    (h : s.slv.handlerRx env.toEnv now obj dlc id data = some v) : v.link = s.slv.link := by
  by_cases ho : obj = 0
  · subst ho
    obtain ⟨s1, r, hp⟩ := Slave.frame_request (show Slave.step env.toEnv s.slv (.frame now 0 dlc id data) = some v from h)
    obtain ⟨-, h2, -⟩ := Slave.processRequest_spec hp
    rw [h2, Slave.checkImage_link, Slave.reqRx_eq]
    exact r.link
  · rw [Slave.handlerRx_eq] at h
    have hr : ∀ x, Slave.reqPart env.toEnv x now obj dlc = some x := by intro x; unfold Slave.reqPart; rw [if_neg ho]
    have hd := Slave.dataPart_rel env.toEnv s.slv obj dlc id data
    have hk := (Slave.dataPart_keeps env.toEnv s.slv obj dlc id data).1
    rw [hr] at h
    generalize Slave.dataPart env.toEnv s.slv obj dlc id data = w at h hd hk
    split at h
    · next hobj =>
      simp only [Option.bind_some, Slave.sysPart, Option.map_eq_some_iff] at h
      obtain ⟨⟨s2, e⟩, h4, h5⟩ := h
      rw [← h5, ← hd.link]
      show s2.link = w.link
      by_cases h2 : Slave.at8 data 0 = 0x02
      · have hx : ¬ (dlc = 8 ∧ sysNrOfId id = 1 ∧ w.node.nrMod ≠ 0) := by
          rintro ⟨a, b, c⟩
          exact hn ⟨hobj, a, b, by rw [← hk.nrMod]; exact c, h2⟩
        exact sysMsg_same h2 hx h4
      · cases Slave.sysMsg_eff h4 with
        | baud h => exact absurd h h2
        | cycle h => rw [Slave.setCycle_eq]
        | _ => rfl
    · rw [← Option.some.inj h]
      exact hd.link

/-- a baud rate message -/
theorem handlerRx_baud {s : Stack} {now obj dlc id : Nat} {data : List Byte} (hb : isBaudMsg env s obj dlc id data) :
    s.slv.handlerRx env.toEnv now obj dlc id data =
      (let v := Slave.dataPart env.toEnv s.slv obj dlc id data
       let r := Slave.changeBaud env.toEnv v.link (Slave.at8 data 1 * 256 + Slave.at8 data 2)
       some { v with link := r.1, node := v.node.report env.toEnv r.2 }) := by
  obtain ⟨h1, h2, h3, h4, h5⟩ := hb
  have ho : obj ≠ 0 := by omega
  have hr : ∀ x, Slave.reqPart env.toEnv x now obj dlc = some x := by intro x; unfold Slave.reqPart; rw [if_neg ho]
  have hk := (Slave.dataPart_keeps env.toEnv s.slv obj dlc id data).1
  rw [Slave.handlerRx_eq, if_pos h1, hr]
  generalize Slave.dataPart env.toEnv s.slv obj dlc id data = w at hk ⊢
  simp only [Option.bind_some, Slave.sysPart]
  have hm : w.node.nrMod ≠ 0 := by rw [hk.nrMod]; exact h4
  have : Slave.sysMsg env.toEnv w (sysNrOfId id) dlc data =
      some ({ w with link := (Slave.changeBaud env.toEnv w.link (Slave.at8 data 1 * 256 + Slave.at8 data 2)).1 },
        (Slave.changeBaud env.toEnv w.link (Slave.at8 data 1 * 256 + Slave.at8 data 2)).2) := by
    unfold Slave.sysMsg
    dsimp only
    rw [if_neg (fun k => k h2), if_neg (by simp [h3]), if_neg (by simp [hm]), h5]
    simp only
    rw [if_neg (fun k => k h3)]
  rw [this]
  rfl

theorem rx_eq (env : AEnv) (d : Duo) (now obj dlc id : Nat) (ext : Bool) (data : List Byte) :
    d.rx env now obj dlc id ext data =
      if d.s.rc.state = .off ∧ ext = false ∧ isBaudMsg env d.s obj dlc id data then
        (let v := Slave.dataPart env.toEnv d.s.slv obj dlc id data
         let r := Duo.changeBaud env v.link d.m (Slave.at8 data 1 * 256 + Slave.at8 data 2)
         let s := (((d.s.setR fun c => { c with pending := .msg }).setSlv env
            { v with link := r.1.1, node := v.node.report env.toEnv r.2 }).processTx env now).1
         some ⟨(s.ctrlRx env obj id data).dataRx env obj dlc data, r.1.2⟩)
      else (d.s.rx env now obj dlc id ext data).map fun s => { d with s := s } := rfl

theorem Agree.rx {d d' : Duo} (h : Agree d) {now obj dlc id : Nat} {ext : Bool} {data : List Byte}
    (hx : d.rx env now obj dlc id ext data = some d') : Agree d' := by
  rw [rx_eq] at hx
  split at hx
  · dsimp only at hx
    rw [← Option.some.inj hx]
    have hd := Slave.dataPart_rel env.toEnv d.s.slv obj dlc id data
    generalize Slave.dataPart env.toEnv d.s.slv obj dlc id data = w at hd ⊢
    have hl := hd.link
    have hw : Level w.link d.m := by rw [hl]; exact h
    have hc := Level.changeBaud env hw (Slave.at8 data 1 * 256 + Slave.at8 data 2)
    generalize Duo.changeBaud env w.link d.m (Slave.at8 data 1 * 256 + Slave.at8 data 2) = r at hc ⊢
    have k := ((Stack.Keep.processTx env (Stack.setSlv env (d.s.setR fun c => { c with pending := .msg })
      { w with link := r.1.1, node := w.node.report env.toEnv r.2 }) now).trans
      (Stack.Keep.ctrlRx env _ obj id data)).trans (Stack.Keep.dataRx env _ obj dlc data)
    show Level _ r.1.2
    rw [k.2, Stack.setSlv_slv]
    exact hc
  · next hn =>
    simp only [Option.map_eq_some_iff] at hx
    obtain ⟨s', hs, e⟩ := hx
    rw [← e]
    unfold Stack.rx at hs
    dsimp only at hs
    split at hs
    · rw [← Option.some.inj hs]; exact h.of rfl rfl
    next ho =>
    split at hs
    · rw [← Option.some.inj hs]; exact h.of rfl rfl
    next hext =>
    simp only [Option.map_eq_some_iff] at hs
    obtain ⟨v, hv, e2⟩ := hs
    rw [← e2]
    have ho' : d.s.rc.state = .off := Classical.byContradiction ho
    have hb : ¬ isBaudMsg env d.s obj dlc id data := fun b => hn ⟨ho', by simpa using hext, b⟩
    have hl := handlerRx_same hb hv
    have k := ((Stack.Keep.processTx env (Stack.setSlv env (d.s.setR fun c => { c with pending := .msg }) v) now).trans
      (Stack.Keep.ctrlRx env _ obj id data)).trans (Stack.Keep.dataRx env _ obj dlc data)
    refine h.of ?_ rfl
    show (Stack.dataRx env _ obj dlc data).slv.link = _
    rw [k.2, Stack.setSlv_slv]
    exact hl

/-- the inputs that never touch a controller -/
theorem Agree.rest {d : Duo} (h : Agree d) {i : SIn} {s' : Stack} (hs : d.s.step env i = some s')
    (h1 : ∀ now bus lec, i ≠ .process now bus lec) (h2 : ∀ now, i ≠ .start now) (h3 : noMode i = true) (h4 : ∀ b, i ≠ .setBaud b)
    (h5 : Stack.isRx i = false) : Agree { d with s := s' } := by
  have k := Stack.other_link hs h1 h2 h3
  generalize hl : s'.slv.link = l' at k
  cases k with
  | same => exact h.of hl rfl
  | startup _ b =>
    show Level s'.slv.link d.m
    rw [hl]
    exact ⟨h.rate, h.op, h.li⟩
  | baud b => exact absurd rfl (h4 b)
  | change _ b h => rw [h5] at h; cases h

/-- the inputs that do not touch a controller -/
def Bare (i : SIn) : Prop :=
  (∀ now bus lec, i ≠ .process now bus lec) ∧ (∀ now, i ≠ .start now) ∧ noMode i = true ∧ (∀ b, i ≠ .setBaud b) ∧ Stack.isRx i = false

theorem step_cases (env : AEnv) (d : Duo) (i : SIn) :
    (∃ now obj dlc id ext data, i = .rx now obj dlc id ext data) ∨ (∃ now bus lec, i = .process now bus lec) ∨ (∃ now, i = .start now) ∨
    (∃ b, i = .setBaud b) ∨ (∃ m, i = .api (.setMode m)) ∨
    Bare i ∧ d.step env i = (d.s.step env i).map fun s => { d with s := s } := by
  have bare : ∀ {i : SIn}, (∀ now bus lec, i ≠ .process now bus lec) → (∀ now, i ≠ .start now) → noMode i = true → (∀ b, i ≠ .setBaud b) →
      Stack.isRx i = false → Bare i := fun a b c d e => ⟨a, b, c, d, e⟩
  cases i with
  | rx now obj dlc id ext data => exact .inl ⟨_, _, _, _, _, _, rfl⟩
  | process now bus lec => exact .inr (.inl ⟨_, _, _, rfl⟩)
  | start now => exact .inr (.inr (.inl ⟨_, rfl⟩))
  | setBaud b => exact .inr (.inr (.inr (.inl ⟨_, rfl⟩)))
  | api i =>
    cases i with
    | setMode m => exact .inr (.inr (.inr (.inr (.inl ⟨_, rfl⟩))))
    | _ => exact .inr (.inr (.inr (.inr (.inr ⟨bare (fun _ _ _ => nofun) (fun _ => nofun) rfl (fun _ => nofun) rfl, rfl⟩))))
  | _ => exact .inr (.inr (.inr (.inr (.inr ⟨bare (fun _ _ _ => nofun) (fun _ => nofun) rfl (fun _ => nofun) rfl, rfl⟩))))

theorem Agree.step {d d' : Duo} (h : Agree d) {i : SIn} (hs : d.step env i = some d') : Agree d' := by
  rcases step_cases env d i with ⟨_, _, _, _, _, _, rfl⟩ | ⟨now, bus, lec, rfl⟩ | ⟨now, rfl⟩ | ⟨b, rfl⟩ | ⟨m, rfl⟩ | ⟨⟨h1, h2, h3, h4, h5⟩, e⟩
  · exact h.rx hs
  · rw [← Option.some.inj hs]; exact h.process now bus lec
  · rw [← Option.some.inj hs]; exact h.start now
  · rw [← Option.some.inj hs]; exact h.baud b
  · rw [← Option.some.inj hs]; exact Agree.mode d h.rate m
  · rw [e] at hs
    simp only [Option.map_eq_some_iff] at hs
    obtain ⟨s', hs, e⟩ := hs
    rw [← e]
    exact h.rest hs h1 h2 h3 h4 h5

theorem Agree.run {d d' : Duo} (h : Agree d) {is : List SIn} (hs : d.run env is = some d') : Agree d' := by
  induction is generalizing d with
  | nil => rw [← Option.some.inj hs]; exact h
  | cons i is ih =>
    simp only [Duo.run, Option.bind_eq_some_iff] at hs
    obtain ⟨t, ht, hr⟩ := hs
    exact ih (h.step ht) hr

theorem Agree.boot (mem : Nat → List Byte) (info : XInfo) : Agree (Duo.boot mem info) := ⟨rfl, nofun, nofun⟩

/-! ## The main part, with a driver that does as it is told -/

/-- the driver of the main controller does as it is told -/
def Obeys (env : AEnv) : Prop := ∀ k, env.modeOk k = true

theorem nodeMode_main (h : Obeys env) (d : Duo) (md : Mode) :
    (d.nodeMode env md).1.s = (d.s.nodeMode env md).1 ∧ (d.nodeMode env md).2 = (d.s.nodeMode env md).2 :=
  ⟨rfl, (Slave.setMode_ok h d.s.slv.link md).1.symm⟩

theorem baudRate_main (env : AEnv) (d : Duo) (b : Nat) :
    (d.baudRate env b).1.s = (d.s.baudRate env b).1 ∧ (d.baudRate env b).2 = (d.s.baudRate env b).2 := ⟨rfl, rfl⟩

theorem setR_s (d : Duo) (f : Recon → Recon) : (d.setR f).s = d.s.setR f := rfl

theorem nextBaud_main (env : AEnv) (d : Duo) (now : Nat) : (d.nextBaud env now).s = d.s.nextBaud env now := by
  unfold nextBaud Stack.nextBaud
  dsimp only
  rw [setR_s]
  congr 1
  generalize Stack.rcTab.getD (if d.s.rc.idx < 3 then d.s.rc.idx + 1 else 0) 0 = x
  obtain ⟨a, b⟩ := baudRate_main env ((({ d with m := d.m.disable } : Duo)).nodeMode env .stopped).1 x
  have e : ((({ d with m := d.m.disable } : Duo)).nodeMode env .stopped).1.s = (d.s.nodeMode env .stopped).1 := rfl
  rw [e] at a b
  generalize ((({ d with m := d.m.disable } : Duo)).nodeMode env .stopped).1.baudRate env x = r at a b ⊢
  rw [b]
  split
  · show (Stack.nodeMode env r.1.s .listen).1 = _
    rw [a]
  · exact a

theorem rcOn_main (env : AEnv) (d : Duo) (now : Nat) (f : Bool) : (d.rcOn env now f).s = d.s.rcOn env now f := by
  unfold rcOn Stack.rcOn
  dsimp only
  cases f with
  | true => rfl
  | false =>
    rw [if_neg (by decide), if_neg (by decide), setR_s, nextBaud_main]
    rfl

theorem rcOff_main (h : Obeys env) (d : Duo) (now : Nat) : (d.rcOff env now).s = d.s.rcOff env now := by
  unfold rcOff Stack.rcOff
  dsimp only
  have e1 : ((({ d with m := d.m.disable } : Duo).setR fun c => { c with process := false }).nodeMode env .stopped).1.s =
      ((d.s.setR fun c => { c with process := false }).nodeMode env .stopped).1 := rfl
  generalize ((({ d with m := d.m.disable } : Duo).setR fun c => { c with process := false }).nodeMode env .stopped).1 = d1 at e1 ⊢
  obtain ⟨a, b⟩ := baudRate_main env d1 d.s.rc.back
  rw [e1] at a b
  generalize d1.baudRate env d.s.rc.back = r at a b ⊢
  generalize ((d.s.setR fun c => { c with process := false }).nodeMode env .stopped).1.baudRate env d.s.rc.back = r' at a b ⊢
  obtain ⟨x, y⟩ := nodeMode_main h r.1 .operational
  have q : (if r.2 = E.ok then r.1.nodeMode env .operational else r).1.s = (if r'.2 = E.ok then r'.1.nodeMode env .operational else r').1 ∧
      (if r.2 = E.ok then r.1.nodeMode env .operational else r).2 = (if r'.2 = E.ok then r'.1.nodeMode env .operational else r').2 := by
    rw [b]
    split
    · rw [x, y, a]; exact ⟨rfl, rfl⟩
    · exact ⟨a, b⟩
  generalize (if r.2 = E.ok then r.1.nodeMode env .operational else r) = q1 at q ⊢
  generalize (if r'.2 = E.ok then r'.1.nodeMode env .operational else r') = q2 at q ⊢
  obtain ⟨q3, q4⟩ := q
  rw [q4]
  split
  · rw [setR_s, setR_s]
    dsimp only
    rw [q3]
  · rw [setR_s, setR_s, q3]

theorem rcSwitch_main (env : AEnv) (d : Duo) (now : Nat) : (d.rcSwitch env now).s = d.s.rcSwitch env now := by
  unfold rcSwitch Stack.rcSwitch
  split
  · rw [setR_s, nextBaud_main]
  · rfl

theorem rcProcess_main (h : Obeys env) (d : Duo) (now : Nat) (p : Pending) (lec : Lec) :
    (d.rcProcess env now p lec).s = d.s.rcProcess env now p lec := by
  unfold rcProcess Stack.rcProcess
  by_cases hp : d.s.rc.process = false
  · rw [if_pos hp, if_pos hp]
  rw [if_neg hp, if_neg hp]
  cases d.s.rc.state with
  | startup =>
    dsimp only
    split
    · rw [rcOff_main h]; rfl
    split
    · rw [rcOff_main h]; rfl
    split
    · rw [rcOn_main]; rfl
    split
    · rw [nextBaud_main]
    · rfl
  | on =>
    dsimp only
    split
    · rw [rcOff_main h]
    split
    · rw [rcSwitch_main]
    cases lec with
    | none => exact rcOff_main h d now
    | bit0 =>
      dsimp only
      show (if 10 ≤ (d.s.setR fun c => { c with bit0 := u16 (c.bit0 + 1) }).rc.bit0 then _ else _ : Duo).s = _
      split
      · rw [rcOff_main h]; rfl
      · rfl
    | undef =>
      dsimp only
      split
      · exact rcOff_main h d now
      · rfl
    | _ => dsimp only; rw [rcSwitch_main]; rfl
  | idle =>
    dsimp only
    show (if env.idleMax < (d.s.setR fun c => { c with idle := u16 (c.idle + 1) }).rc.idle then _ else _ : Duo).s = _
    split <;> rfl
  | _ => rfl

theorem rcError_main (env : AEnv) (d : Duo) (now : Nat) (c : RCause) : (d.rcError env now c).s = d.s.rcError env now c := by
  unfold rcError Stack.rcError
  split
  · dsimp only
    rw [rcOn_main]
    rfl
  · rfl

theorem hwBusOff_main (env : AEnv) (d : Duo) (now : Nat) (bus : Stack.BusState) (lec : Lec) :
    (d.hwBusOff env now bus lec).s = d.s.hwBusOff env now bus lec := by
  unfold hwBusOff Stack.hwBusOff
  split
  · rw [rcError_main]; rfl
  · rfl

theorem hwPassive_main (env : AEnv) (d : Duo) (now : Nat) (bus : Stack.BusState) : (d.hwPassive env now bus).s = d.s.hwPassive env now bus := by
  unfold hwPassive Stack.hwPassive
  split
  · rw [rcError_main]
  · rfl

theorem process_main (h : Obeys env) (d : Duo) (now : Nat) (bus : Stack.BusState) (lec : Lec) :
    (d.process env now bus lec).s = d.s.process env now bus lec := by
  unfold Duo.process Stack.process
  dsimp only
  have e : (Duo.hwError env { d with s := { d.s with slv := d.s.slv.trigger env.toEnv now } } now bus lec).s =
      Stack.hwError env { d.s with slv := d.s.slv.trigger env.toEnv now } now bus lec := by
    generalize hd : ({ d with s := { d.s with slv := d.s.slv.trigger env.toEnv now } } : Duo) = d1
    have hs : ({ d.s with slv := d.s.slv.trigger env.toEnv now } : Stack) = d1.s := by rw [← hd]
    rw [hs]
    unfold hwError Stack.hwError
    dsimp only
    have k : (if (bus ≠ .active ∨ lec ≠ .none) ∧ d1.s.rc.state = .off then (d1.hwBusOff env now bus lec).hwPassive env now bus else d1).s =
        (if (bus ≠ .active ∨ lec ≠ .none) ∧ d1.s.rc.state = .off then (d1.s.hwBusOff env now bus lec).hwPassive env now bus else d1.s) := by
      split
      · rw [hwPassive_main, hwBusOff_main]
      · rfl
    rw [← k]
    generalize (if (bus ≠ .active ∨ lec ≠ .none) ∧ d1.s.rc.state = .off then (d1.hwBusOff env now bus lec).hwPassive env now bus else d1) = d2
    split
    · exact rcProcess_main h d2 now _ lec
    · rfl
  rw [e]

theorem rcStartup_main (env : AEnv) (d : Duo) (now : Nat) : (d.rcStartup env now).s = d.s.rcStartup env now := by
  unfold rcStartup Stack.rcStartup
  split
  · dsimp only
    rw [rcOn_main]
    rfl
  · rfl

theorem start_main (h : Obeys env) (d : Duo) (now : Nat) :
    (d.start env now).1.s = (d.s.start env now).1 ∧ (d.start env now).2 = (d.s.start env now).2 := by
  unfold Duo.start Stack.start
  have key : ∀ (r : Duo × Err) (q : Stack × Err), r.1.s = q.1 → r.2 = q.2 →
      (if r.2 = E.ok then ({ r.1 with s := { r.1.s.startAck env with lcsa := .running } }, E.ok) else r).1.s =
        (if q.2 = E.ok then ({ q.1.startAck env with lcsa := .running }, E.ok) else q).1 ∧
      (if r.2 = E.ok then (({ r.1 with s := { r.1.s.startAck env with lcsa := .running } } : Duo), E.ok) else r).2 =
        (if q.2 = E.ok then (({ q.1.startAck env with lcsa := .running } : Stack), E.ok) else q).2 := by
    intro r q h1 h2
    rw [h2]
    split
    · exact ⟨by rw [← h1], rfl⟩
    · exact ⟨h1, h2⟩
  have key2 : ∀ {r : Duo × Err} {q : Stack × Err}, r.1.s = q.1 ∧ r.2 = q.2 → _ := fun {r q} x => key r q x.1 x.2
  refine key2 ?_
  split
  · dsimp only
    obtain ⟨a, b⟩ := nodeMode_main h (((((d.setR fun c => { c with state := .off }).nodeMode env .stopped).1.baudRate env
      ((d.setR fun c => { c with state := .off }).nodeMode env .stopped).1.s.slv.link.startup).1).setR fun c => { c with cause := .download }) .operational
    have e : ((((d.setR fun c => { c with state := .off }).nodeMode env .stopped).1.baudRate env
      ((d.setR fun c => { c with state := .off }).nodeMode env .stopped).1.s.slv.link.startup).1.setR fun c => { c with cause := .download }).s =
      ((((d.s.setR fun c => { c with state := .off }).nodeMode env .stopped).1.baudRate env
      ((d.s.setR fun c => { c with state := .off }).nodeMode env .stopped).1.slv.link.startup).1.setR fun c => { c with cause := .download }) := rfl
    rw [e] at a b
    rw [b]
    split
    · exact ⟨by rw [← a], rfl⟩
    · exact ⟨a, b⟩
  · dsimp only
    obtain ⟨a, b⟩ := nodeMode_main h ((((d.setR fun c => { c with state := .startup }).nodeMode env .stopped).1.baudRate env
      ((d.setR fun c => { c with state := .startup }).nodeMode env .stopped).1.s.slv.link.startup).1.rcStartup env now) .listen
    rw [rcStartup_main] at a b
    exact ⟨a, b⟩

theorem changeBaud_main (h : Obeys env) (l : Link) (m : MonCtl) (b : Nat) :
    (Duo.changeBaud env l m b).1.1 = (Slave.changeBaud env.toEnv l b).1 ∧ (Duo.changeBaud env l m b).2 = (Slave.changeBaud env.toEnv l b).2 := by
  unfold Duo.changeBaud Slave.changeBaud
  dsimp only
  rw [if_pos (Slave.setMode_ok h l .stopped).1]
  split
  · exact ⟨rfl, (Slave.setMode_ok h _ _).1.symm⟩
  · exact ⟨rfl, rfl⟩

theorem rx_main (h : Obeys env) (d : Duo) (now obj dlc id : Nat) (ext : Bool) (data : List Byte) :
    (d.rx env now obj dlc id ext data).map (·.s) = d.s.rx env now obj dlc id ext data := by
  rw [rx_eq]
  split
  · next hb =>
    obtain ⟨h1, h2, h3⟩ := hb
    unfold Stack.rx
    dsimp only
    have ho : (d.s.setR fun c => { c with pending := .msg }).rc.state = .off := h1
    rw [if_neg (fun k => k ho), h2, if_neg (by decide)]
    have e := handlerRx_baud (s := d.s) (now := now) h3
    dsimp only at e
    have e' : Slave.handlerRx env.toEnv (d.s.setR fun c => { c with pending := .msg }).slv now obj dlc id data = _ := e
    rw [e']
    obtain ⟨a, b⟩ := changeBaud_main h (Slave.dataPart env.toEnv d.s.slv obj dlc id data).link d.m (Slave.at8 data 1 * 256 + Slave.at8 data 2)
    rw [a, b]
    rfl
  · rw [Option.map_map]
    exact Option.map_id'

theorem step_main (h : Obeys env) (d : Duo) (i : SIn) : (d.step env i).map (·.s) = d.s.step env i := by
  rcases step_cases env d i with ⟨_, _, _, _, _, _, rfl⟩ | ⟨now, bus, lec, rfl⟩ | ⟨now, rfl⟩ | ⟨b, rfl⟩ | ⟨m, rfl⟩ | ⟨-, e⟩
  · exact rx_main h ..
  · exact congrArg some (process_main h d now bus lec)
  · exact congrArg some (start_main h d now).1
  · rfl
  · rfl
  · rw [e, Option.map_map]
    exact Option.map_id'

theorem run_main (h : Obeys env) (d : Duo) (is : List SIn) : (d.run env is).map (·.s) = Stack.run env d.s is := by
  induction is generalizing d with
  | nil => rfl
  | cons i is ih =>
    have e := step_main h d i
    simp only [Duo.run, Stack.run]
    rw [← e]
    cases d.step env i with
    | none => rfl
    | some t => exact ih t

/-! ## The commands -/

theorem setBaud_of_stopped {l : Link} (hm : l.mode = .stopped) {b : Nat} (m : MonCtl) :
    (Slave.setBaud l b).2 = E.ok ∧ (Slave.setBaud l b).1.mode = .stopped ∧
    (if (Slave.setBaud l b).2 = E.ok ∧ Slave.baudValid b = true then m.setRate (Slave.setBaud l b).1.mode b else m) =
      if Slave.baudValid b = true then (({ m.mode .stop with rate := b } : MonCtl)).mode .listen else m := by
  by_cases hb : b = 125 ∨ b = 250 ∨ b = 500 ∨ b = 1000
  · rw [Slave.setBaud_stopped l b hm hb, if_pos ⟨rfl, Level.rate_valid hb⟩, if_pos (Level.rate_valid hb)]
    refine ⟨rfl, hm, ?_⟩
    unfold MonCtl.setRate
    dsimp only
    rw [hm, if_neg (by decide)]
  · rw [Slave.setBaud_other l b hb, if_neg (fun x => hb (Level.valid_rate x.2)), if_neg (fun x => hb (Level.valid_rate x))]
    exact ⟨rfl, hm, rfl⟩

theorem rcTab_valid (i : Nat) : Slave.baudValid (Stack.rcTab.getD (if i < 3 then i + 1 else 0) 0) = true := by
  have : ∀ k < 4, Slave.baudValid (Stack.rcTab.getD k 0) = true := by decide
  refine this _ ?_
  split <;> omega

theorem nextBaud_m (env : AEnv) (d : Duo) (now : Nat) :
    (d.nextBaud env now).m =
      (let b := Stack.rcTab.getD (if d.s.rc.idx < 3 then d.s.rc.idx + 1 else 0) 0
       ⟨b, .listen, (.listen, b) :: (.listen, b) :: (.listen, b) :: (.stop, d.m.rate) :: (.start, d.m.rate) :: (.stop, d.m.rate) :: d.m.cmds⟩) := by
  unfold nextBaud
  have hv := rcTab_valid d.s.rc.idx
  dsimp only
  generalize Stack.rcTab.getD (if d.s.rc.idx < 3 then d.s.rc.idx + 1 else 0) 0 = b at hv ⊢
  have hm : ((({ d with m := d.m.disable } : Duo)).nodeMode env .stopped).1.m = (d.m.disable).enable .stopped := rfl
  have hl : ((({ d with m := d.m.disable } : Duo)).nodeMode env .stopped).1.s.slv.link.mode = .stopped :=
    (Slave.setMode_mode env.toEnv d.s.slv.link .stopped).1
  generalize ((({ d with m := d.m.disable } : Duo)).nodeMode env .stopped).1 = d1 at hm hl ⊢
  obtain ⟨a, -, c⟩ := setBaud_of_stopped hl (b := b) d1.m
  have a' : (d1.baudRate env b).2 = E.ok := a
  have c' : (d1.baudRate env b).1.m = _ := c
  generalize d1.baudRate env b = r at a' c' ⊢
  rw [if_pos a']
  rw [if_pos hv, hm] at c'
  have hl3 : ((r.1.nodeMode env .listen).1.setR fun x => { x with
      idx := if d.s.rc.idx < 3 then d.s.rc.idx + 1 else 0, back := b, next := u32 (now + env.ms2t env.swTime) }).s.slv.link.mode = .listen :=
    (Slave.setMode_mode env.toEnv r.1.s.slv.link .listen).1
  rw [hl3]
  show ((r.1.m.enable .listen).enable .listen) = _
  rw [c']
  rfl

theorem rcOff_m (env : AEnv) (d : Duo) (now : Nat) :
    (d.rcOff env now).m =
      if Slave.baudValid d.s.rc.back = true then
        ⟨d.s.rc.back, .start, (.start, d.s.rc.back) :: (.listen, d.s.rc.back) :: (.stop, d.m.rate) :: (.start, d.m.rate) :: (.stop, d.m.rate) :: d.m.cmds⟩
      else ⟨d.m.rate, .start, (.start, d.m.rate) :: (.start, d.m.rate) :: (.stop, d.m.rate) :: d.m.cmds⟩ := by
  unfold rcOff
  dsimp only
  have hm : ((({ d with m := d.m.disable } : Duo).setR fun c => { c with process := false }).nodeMode env .stopped).1.m =
      (d.m.disable).enable .stopped := rfl
  have hl : ((({ d with m := d.m.disable } : Duo).setR fun c => { c with process := false }).nodeMode env .stopped).1.s.slv.link.mode = .stopped :=
    (Slave.setMode_mode env.toEnv d.s.slv.link .stopped).1
  generalize ((({ d with m := d.m.disable } : Duo).setR fun c => { c with process := false }).nodeMode env .stopped).1 = d1 at hm hl ⊢
  obtain ⟨a, -, c⟩ := setBaud_of_stopped hl (b := d.s.rc.back) d1.m
  have a' : (d1.baudRate env d.s.rc.back).2 = E.ok := a
  have c' : (d1.baudRate env d.s.rc.back).1.m = _ := c
  generalize d1.baudRate env d.s.rc.back = r at a' c' ⊢
  rw [if_pos a']
  have e2 : (r.1.nodeMode env .operational).2 = E.ok := rfl
  have e3 : (r.1.nodeMode env .operational).1.m = r.1.m.enable .operational := rfl
  generalize r.1.nodeMode env .operational = q at e2 e3 ⊢
  rw [if_pos e2, if_pos e2]
  show q.1.m = _
  rw [e3, c', hm]
  split <;> rfl

theorem rcOff_state (env : AEnv) (d : Duo) (now : Nat) : (d.rcOff env now).s.rc.state = .off := by
  unfold rcOff
  dsimp only
  generalize (if (Duo.baudRate env _ d.s.rc.back).2 = E.ok then _ else _ : Duo × Err) = r
  split
  · show (Stack.rcDone env _ d.s.rc.back).rc.state = _
    rw [(Stack.rcDone_spec env _ _).1.1]
    rfl
  · rfl

/-- one round of the search, for the monitor controller -/
inductive Round (env : AEnv) (d : Duo) : Duo → Prop
  | same {d' : Duo} (h : d'.m = d.m) (hs : d'.s.rc.state ≠ .off) : Round env d d'
  | next {d' : Duo} (i : Nat) (hi : i < 4) (h : d'.m =
      ⟨Stack.rcTab.getD i 0, .listen, (.listen, Stack.rcTab.getD i 0) :: (.listen, Stack.rcTab.getD i 0) :: (.listen, Stack.rcTab.getD i 0) ::
        (.stop, d.m.rate) :: (.start, d.m.rate) :: (.stop, d.m.rate) :: d.m.cmds⟩) (hs : d'.s.rc.state ≠ .off) : Round env d d'
  | ended {d' : Duo} (b : Nat) (h : d'.m = if Slave.baudValid b = true then
        ⟨b, .start, (.start, b) :: (.listen, b) :: (.stop, d.m.rate) :: (.start, d.m.rate) :: (.stop, d.m.rate) :: d.m.cmds⟩
      else ⟨d.m.rate, .start, (.start, d.m.rate) :: (.start, d.m.rate) :: (.stop, d.m.rate) :: d.m.cmds⟩) (hs : d'.s.rc.state = .off) : Round env d d'

theorem Round.after {d d1 d' : Duo} (hm : d1.m = d.m) (h : Round env d1 d') : Round env d d' := by
  cases h with
  | same h hs => exact .same (h.trans hm) hs
  | next i hi h hs => rw [hm] at h; exact .next i hi h hs
  | ended b h hs => rw [hm] at h; exact .ended b h hs

theorem Round.keep {d d' : Duo} {s' : Stack} (h : Round env d d') (hs : s'.rc = d'.s.rc) : Round env d { d' with s := s' } := by
  cases h with
  | same h k => exact .same h (by rw [hs]; exact k)
  | next i hi h k => exact .next i hi h (by rw [hs]; exact k)
  | ended b h k => exact .ended b h (by rw [hs]; exact k)

theorem nextBaud_state (env : AEnv) (d : Duo) (now : Nat) : (d.nextBaud env now).s.rc.state = d.s.rc.state := by
  rw [nextBaud_main, (Stack.nextBaud_spec env d.s now).1]

theorem Round.nextBaud (d : Duo) (now : Nat) (f : Recon → Recon) (hs : ((d.nextBaud env now).setR f).s.rc.state ≠ .off) :
    Round env d ((d.nextBaud env now).setR f) :=
  .next (Stack.succ4 d.s.rc.idx) (Stack.succ4_lt _) (nextBaud_m env d now) hs

theorem Round.off (d : Duo) (now : Nat) : Round env d (d.rcOff env now) := .ended d.s.rc.back (rcOff_m env d now) (rcOff_state env d now)

theorem Round.switch (d : Duo) (now : Nat) (hs : d.s.rc.state ≠ .off) : Round env d (d.rcSwitch env now) := by
  unfold rcSwitch
  split
  · exact .nextBaud d now _ nofun
  · exact .same rfl hs

theorem Round.on (d : Duo) (now : Nat) (hs : d.s.rc.state ≠ .off) : Round env d (d.rcOn env now false) := by
  unfold rcOn
  dsimp only
  rw [if_neg (by decide)]
  have h1 : ((({ d with s := { d.s with lcsa := .reconnect } } : Duo)).setR fun c => { c with bit0 := 0 }).m = d.m := rfl
  have h2 : ((({ d with s := { d.s with lcsa := .reconnect } } : Duo)).setR fun c => { c with bit0 := 0 }).s.rc.state ≠ .off := hs
  generalize (({ d with s := { d.s with lcsa := .reconnect } } : Duo)).setR (fun c => { c with bit0 := 0 }) = d1 at h1 h2 ⊢
  refine .after h1 (.nextBaud d1 now _ ?_)
  have := nextBaud_state env d1 now
  generalize d1.nextBaud env now = d2 at this ⊢
  show d2.s.rc.state ≠ .off
  rw [this]; exact h2

theorem round_turn (env : AEnv) (d : Duo) (now : Nat) (p : Pending) (lec : Lec) (hs : d.s.rc.state ≠ .off) :
    Round env d (d.rcProcess env now p lec) := by
  unfold rcProcess
  split
  · exact .same rfl hs
  split
  · next hst =>
    split
    · exact .after (d1 := d.setR _) rfl (.off _ now)
    split
    · exact .after (d1 := d.setR _) rfl (.off _ now)
    split
    · exact .after (d1 := d.setR _) rfl (.on _ now nofun)
    split
    · exact .next (Stack.succ4 d.s.rc.idx) (Stack.succ4_lt _) (nextBaud_m env d now) (by rw [nextBaud_state]; exact hs)
    · exact .same rfl hs
  · split
    · exact .off d now
    split
    · exact .switch d now hs
    split
    · exact .off d now
    · dsimp only
      split
      · exact .after (d1 := d.setR _) rfl (.off _ now)
      · exact .same rfl hs
    · split
      · exact .off d now
      · exact .same rfl hs
    · exact .after (d1 := d.setR _) rfl (.switch _ now hs)
  · dsimp only
    split
    · exact .same rfl nofun
    · exact .same rfl hs
  · exact .same rfl hs

theorem round_process (env : AEnv) (d : Duo) (now : Nat) (bus : Stack.BusState) (lec : Lec) (hs : d.s.rc.state ≠ .off) :
    Round env d (d.process env now bus lec) := by
  unfold Duo.process
  dsimp only
  refine Round.keep ?_ (Stack.Keep.processTx env _ now).1
  refine Round.after (d1 := { d with s := { d.s with slv := d.s.slv.trigger env.toEnv now } }) rfl ?_
  have hs : ({ d with s := { d.s with slv := d.s.slv.trigger env.toEnv now } } : Duo).s.rc.state ≠ .off := hs
  generalize ({ d with s := { d.s with slv := d.s.slv.trigger env.toEnv now } } : Duo) = d at hs ⊢
  unfold hwError
  dsimp only
  rw [if_neg (c := (bus ≠ .active ∨ lec ≠ .none) ∧ d.s.rc.state = .off) (fun k => hs k.2), if_pos hs]
  exact round_turn env d now _ lec hs

end Duo
end LiCan
