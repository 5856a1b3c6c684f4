import Verif.Model.SwitchIrq
import Verif.Props.NodeProcess
/-! # Switching a module while process requests arrive (C135) -/
namespace LiCan
namespace Node
open Spec

variable {env : Env}

/-! ## The steps add up to the function -/

/-- the steps one after the other -/
def execs (env : Env) (on : Bool) (tp : Nat) (l : List Mic) (s : Sw) : Sw := l.foldl (fun s m => exec env on tp m s) s

theorem execs_append (on : Bool) (tp : Nat) (l m : List Mic) (s : Sw) :
    execs env on tp (l ++ m) s = execs env on tp m (execs env on tp l s) := List.foldl_append

theorem setRow_setRow (n : Node) (tp : Nat) (f g : Row → Row) : (n.setRow tp f).setRow tp g = n.setRow tp fun r => g (f r) := by
  unfold setRow
  dsimp only
  rw [upd_same, upd_upd]

theorem setRow_rows (n : Node) (tp : Nat) (f : Row → Row) : (n.setRow tp f).rows tp = f (n.rows tp) := upd_same ..

theorem execs_tx_on (tp : Nat) (is : List Nat) : ∀ s : Sw, (execs env true tp (is.flatMap txMics) s).n =
    forDo (fun i n => (n.txOn tp i).setRow tp fun r =>
      { r with txDlcSync := upd r.txDlcSync i (r.txDlc i), txMainSync := upd r.txMainSync i (r.txMain i) }) is s.n := by
  induction is with
  | nil => intro s; rfl
  | cons i is ih =>
    intro s
    rw [List.flatMap_cons, execs_append, ih, forDo]
    congr 1
    simp only [execs, txMics, rxMics, List.foldl_cons, List.foldl_nil, exec, if_true, Bool.false_eq_true, if_false]
    rw [setRow_setRow]
    rfl

theorem execs_tx_off (tp : Nat) (is : List Nat) : ∀ s : Sw, (execs env false tp (is.flatMap txMics) s).n =
    forDo (fun i n => (n.txOff tp i).setRow tp fun r =>
      { r with txDlcSync := upd r.txDlcSync i 0, txMainSync := upd r.txMainSync i .dummy }) is s.n := by
  induction is with
  | nil => intro s; rfl
  | cons i is ih =>
    intro s
    rw [List.flatMap_cons, execs_append, ih, forDo]
    congr 1
    simp only [execs, txMics, rxMics, List.foldl_cons, List.foldl_nil, exec, if_true, Bool.false_eq_true, if_false]
    rw [setRow_setRow]
    rfl

theorem execs_rx_on (tp : Nat) (is : List Nat) : ∀ s : Sw, (execs env true tp (is.flatMap rxMics) s).n =
    forDo (fun i n => n.setRow tp fun r =>
      { r with rxDlcSync := upd r.rxDlcSync i (r.rxDlc i), rxMainSync := upd r.rxMainSync i (r.rxMain i) }) is s.n := by
  induction is with
  | nil => intro s; rfl
  | cons i is ih =>
    intro s
    rw [List.flatMap_cons, execs_append, ih, forDo]
    congr 1
    simp only [execs, txMics, rxMics, List.foldl_cons, List.foldl_nil, exec, if_true, Bool.false_eq_true, if_false]
    rw [setRow_setRow]

theorem execs_rx_off (tp : Nat) (is : List Nat) : ∀ s : Sw, (execs env false tp (is.flatMap rxMics) s).n =
    forDo (fun i n => n.setRow tp fun r =>
      { r with rxDlcSync := upd r.rxDlcSync i 0, rxMainSync := upd r.rxMainSync i .dummy }) is s.n := by
  induction is with
  | nil => intro s; rfl
  | cons i is ih =>
    intro s
    rw [List.flatMap_cons, execs_append, ih, forDo]
    congr 1
    simp only [execs, txMics, rxMics, List.foldl_cons, List.foldl_nil, exec, if_true, Bool.false_eq_true, if_false]
    rw [setRow_setRow]

theorem execs_clear (tp : Nat) (is : List Nat) : ∀ s : Sw, (execs env false tp (is.map .clear) s).n =
    forDo (fun i n => (n.callRx env ((n.rows tp).rxMain i) zeros8 ((n.rows tp).rx i) ((n.rows tp).rxDlc i)).1) is s.n := by
  induction is with
  | nil => intro s; rfl
  | cons i is ih =>
    intro s
    exact ih _

/-- a loop that keeps a part of the table -/
theorem forDo_keep {α : Type} (p : Node → α) (f : Nat → Node → Node) (hf : ∀ i n, p (f i n) = p n) (is : List Nat) :
    ∀ n, p (forDo f is n) = p n := by
  induction is with
  | nil => intro n; rfl
  | cons i is ih => intro n; exact (ih _).trans (hf i n)

/-- Without interrupts the steps are the function of the table model: switching on. -/
theorem C135_steps_on (n : Node) (tp : Nat) (htp : tp < env.maxMod) :
    (execs env true tp (program true (n.rows tp).txObj (n.rows tp).rxObj) { n := n }).n = (setSilentAwake env n tp 1).1 := by
  unfold program setSilentAwake syncOn
  rw [if_pos htp, if_neg (c := (1 : Nat) = 0) (by decide), if_pos (c := (1 : Nat) = 1) rfl, if_pos (c := true = true) rfl, List.append_nil, execs_append, execs_append, execs_append, execs_rx_on]
  have h1 : ∀ s : Sw, (execs env true tp [.rxCount] s).n = s.n.setRow tp fun r => { r with rxObjSync := r.rxObj } := fun s => rfl
  rw [h1, execs_tx_on]
  have h2 : (execs env true tp [.flag, .call, .txCount] { n := n }).n =
    ({ n with silent := upd n.silent tp 1, log := .silentCb tp (n.rows tp).nr 1 :: n.log } : Node).setRow tp fun r => { r with txObjSync := r.txObj } := rfl
  rw [h2]
  dsimp only
  have e1 : ((({ n with silent := upd n.silent tp 1, log := .silentCb tp (n.rows tp).nr 1 :: n.log } : Node).setRow tp
      fun r => { r with txObjSync := r.txObj }).rows tp).txObj = (n.rows tp).txObj := by rw [setRow_rows]
  have e2 : ((({ n with silent := upd n.silent tp 1, log := .silentCb tp (n.rows tp).nr 1 :: n.log } : Node).setRow tp
      fun r => { r with txObjSync := r.txObj }).rows tp).rxObj = (n.rows tp).rxObj := by rw [setRow_rows]
  rw [e1]
  generalize (({ n with silent := upd n.silent tp 1, log := .silentCb tp (n.rows tp).nr 1 :: n.log } : Node).setRow tp
      fun r => { r with txObjSync := r.txObj }) = n1 at *
  have e3 := forDo_keep (fun n => (n.rows tp).rxObj) (fun i n => (n.txOn tp i).setRow tp fun r =>
      { r with txDlcSync := upd r.txDlcSync i (r.txDlc i), txMainSync := upd r.txMainSync i (r.txMain i) })
      (fun i n => by rw [setRow_rows]; rfl) (List.range (n.rows tp).txObj) n1
  rw [← e2, ← e3]
  congr 1
  rw [setRow_rows]

/-- Without interrupts the steps are the function of the table model: switching off. -/
theorem C135_steps_off (n : Node) (tp : Nat) (htp : tp < env.maxMod) :
    (execs env false tp (program false (n.rows tp).txObj (n.rows tp).rxObj) { n := n }).n = (setSilentAwake env n tp 0).1 := by
  unfold program setSilentAwake syncOff
  rw [if_pos htp, if_pos rfl, if_neg Bool.false_ne_true, execs_append, execs_append, execs_append, execs_append, execs_clear, execs_rx_off]
  have h1 : ∀ s : Sw, (execs env false tp [.rxCount] s).n = s.n.setRow tp fun r => { r with rxObjSync := 0 } := fun s => rfl
  rw [h1, execs_tx_off]
  have h2 : (execs env false tp [.flag, .call, .txCount] { n := n }).n =
    ({ n with silent := upd n.silent tp 0, log := .silentCb tp (n.rows tp).nr 0 :: n.log } : Node).setRow tp fun r => { r with txObjSync := 0 } := rfl
  rw [h2]
  dsimp only
  have e1 : ((({ n with silent := upd n.silent tp 0, log := .silentCb tp (n.rows tp).nr 0 :: n.log } : Node).setRow tp
      fun r => { r with txObjSync := 0 }).rows tp).txObj = (n.rows tp).txObj := by rw [setRow_rows]
  have e2 : ((({ n with silent := upd n.silent tp 0, log := .silentCb tp (n.rows tp).nr 0 :: n.log } : Node).setRow tp
      fun r => { r with txObjSync := 0 }).rows tp).rxObj = (n.rows tp).rxObj := by rw [setRow_rows]
  rw [e1]
  generalize (({ n with silent := upd n.silent tp 0, log := .silentCb tp (n.rows tp).nr 0 :: n.log } : Node).setRow tp
      fun r => { r with txObjSync := 0 }) = n1 at *
  have e3 := forDo_keep (fun n => (n.rows tp).rxObj) (fun i n => (n.txOff tp i).setRow tp fun r =>
      { r with txDlcSync := upd r.txDlcSync i 0, txMainSync := upd r.txMainSync i .dummy })
      (fun i n => by rw [setRow_rows]; rfl) (List.range (n.rows tp).txObj) n1
  generalize forDo (fun i n => (n.txOff tp i).setRow tp fun r =>
      { r with txDlcSync := upd r.txDlcSync i 0, txMainSync := upd r.txMainSync i .dummy }) (List.range (n.rows tp).txObj) n1 = n2 at *
  have e4 : ((n2.setRow tp fun r => { r with rxObjSync := 0 }).rows tp).rxObj = (n.rows tp).rxObj := by rw [setRow_rows]; exact e3.trans e2
  rw [e4]
  generalize (n2.setRow tp fun r => { r with rxObjSync := 0 }) = n3 at *
  have e5 := forDo_keep (fun n => (n.rows tp).rxObj) (fun i n => n.setRow tp fun r =>
      { r with rxDlcSync := upd r.rxDlcSync i 0, rxMainSync := upd r.rxMainSync i .dummy })
      (fun i n => by rw [setRow_rows]) (List.range (n.rows tp).rxObj) n3
  rw [e5, e4]

end Node

namespace Spec
open Node

/-- What the application's conversion of place `p` of the send register (object `p % 4` of row `p / 4`) makes of the contents `buf` of
the frame buffer. -/
def Made (env : Env) (n : Node) (p : Nat) (buf d : List Byte) : Prop :=
  ∃ k, (n.rows (p / 4)).txMain (p % 4) = .app k ∧
    d = (env.txConv k (n.mem ((n.rows (p / 4)).tx (p % 4))) ((n.rows (p / 4)).txDlc (p % 4)) buf).1

/-- The frame is that of place `p`, and its data are what the application's conversion for it made. -/
def RightAt (env : Env) (n : Node) (p : Nat) (f : Frame) : Prop :=
  f.id = n.tx.id (p / 4) (p % 4) ∧ f.dlc = n.tx.dlc (p / 4) (p % 4) ∧
  ∃ buf d, Made env n p buf d ∧ f.data = d.take f.dlc

/-- What the frame buffer may contain: what the stack contained, or what the conversion of an earlier place with its bit set made. -/
inductive Held (env : Env) (n : Node) : Nat → List Byte → Prop
  | stack (p : Nat) : Held env n p env.garbage
  | made {q p : Nat} {b d : List Byte} (h : q < p) (hb : n.tx.reg.getLsbD q = true) (hq : Held env n q b) (hd : Made env n q b d) :
      Held env n p d

/-- The frame is that of place `p`, but its data are the old contents of the frame buffer. -/
def StaleAt (env : Env) (n : Node) (p : Nat) (f : Frame) : Prop :=
  f.id = n.tx.id (p / 4) (p % 4) ∧ f.dlc = n.tx.dlc (p / 4) (p % 4) ∧ ∃ buf, Held env n p buf ∧ f.data = buf.take f.dlc

/-- Every place with its bit set has its conversion entered. -/
def Entered (n : Node) (p : Nat) : Prop :=
  ∃ k, (n.rows (p / 4)).txMain (p % 4) = .app k ∧ (n.rows (p / 4)).txMainSync (p % 4) = .app k

end Spec

namespace Node
open Spec
variable {env : Env}

/-! ## The frames of one process request -/

/-- everything but log, error queue and counters is as before -/
structure Tabs (n n' : Node) : Prop where
  rows : n'.rows = n.rows
  tx : n'.tx = n.tx
  mem : n'.mem = n.mem

theorem Tabs.refl (n : Node) : Tabs n n := ⟨rfl, rfl, rfl⟩
theorem Tabs.trans {a b c : Node} (h : Tabs a b) (k : Tabs b c) : Tabs a c :=
  ⟨k.rows.trans h.rows, k.tx.trans h.tx, k.mem.trans h.mem⟩

/-- Frame of place `p`, the buffer containing `buf`. -/
def frameAt (env : Env) (n : Node) (p : Nat) (buf : List Byte) : Frame :=
  ⟨n.tx.id (p / 4) (p % 4), n.tx.dlc (p / 4) (p % 4),
    (callTx env ((n.rows (p / 4)).txMainSync (p % 4)) (n.mem ((n.rows (p / 4)).tx (p % 4))) ((n.rows (p / 4)).txDlc (p % 4)) buf).1.take
      (n.tx.dlc (p / 4) (p % 4))⟩

/-- the buffer after place `p` -/
def bufAt (env : Env) (n : Node) (p : Nat) (buf : List Byte) : List Byte :=
  (callTx env ((n.rows (p / 4)).txMainSync (p % 4)) (n.mem ((n.rows (p / 4)).tx (p % 4))) ((n.rows (p / 4)).txDlc (p % 4)) buf).1

theorem sendOne_frames (n : Node) (p : Nat) (buf : List Byte) :
    Tabs n (sendOne env n (p / 4) (p % 4) buf).1 ∧
    (((sendOne env n (p / 4) (p % 4) buf).2 = buf ∧ (sendOne env n (p / 4) (p % 4) buf).1.log = n.log) ∨
     ((sendOne env n (p / 4) (p % 4) buf).2 = bufAt env n p buf ∧
      ((sendOne env n (p / 4) (p % 4) buf).1.log = n.log ∨
       ∃ ok, (sendOne env n (p / 4) (p % 4) buf).1.log = .frame (frameAt env n p buf) ok :: n.log))) := by
  unfold sendOne
  dsimp only
  by_cases h : (n.rows (p / 4)).tx (p % 4) = 0 ∨ (n.rows (p / 4)).txMainSync (p % 4) = .null
  · rw [if_pos h]
    exact ⟨⟨rfl, rfl, rfl⟩, .inl ⟨rfl, rfl⟩⟩
  rw [if_neg h]
  by_cases h2 : (callTx env ((n.rows (p / 4)).txMainSync (p % 4)) (n.mem ((n.rows (p / 4)).tx (p % 4)))
      ((n.rows (p / 4)).txDlc (p % 4)) buf).2 = E.ok
  · rw [if_pos h2]
    obtain ⟨q, e⟩ := report_eq env (send env n (frameAt env n p buf)).1 (send env n (frameAt env n p buf)).2
    unfold frameAt at e
    rw [e]
    exact ⟨⟨rfl, rfl, rfl⟩, .inr ⟨rfl, .inr ⟨_, rfl⟩⟩⟩
  · rw [if_neg h2]
    obtain ⟨q, e⟩ := report_eq env n (callTx env ((n.rows (p / 4)).txMainSync (p % 4)) (n.mem ((n.rows (p / 4)).tx (p % 4)))
      ((n.rows (p / 4)).txDlc (p % 4)) buf).2
    rw [e]
    exact ⟨⟨rfl, rfl, rfl⟩, .inr ⟨rfl, .inl rfl⟩⟩

theorem frameAt_congr {n n' : Node} (h : Tabs n n') (p : Nat) (b : List Byte) : frameAt env n' p b = frameAt env n p b := by
  unfold frameAt; rw [h.rows, h.tx, h.mem]
theorem bufAt_congr {n n' : Node} (h : Tabs n n') (p : Nat) (b : List Byte) : bufAt env n' p b = bufAt env n p b := by
  unfold bufAt; rw [h.rows, h.mem]

/-- The frames of the loop, `B p b` being what is known of the buffer before place `p`. -/
theorem sendRun_frames (n : Node) (B : Nat → List Byte → Prop)
    (up : ∀ p q b, p ≤ q → B p b → B q b)
    (next : ∀ p b, n.tx.reg.getLsbD p = true → B p b → B (p + 1) (bufAt env n p b)) :
    ∀ (k : Nat) (s : SendSt) (n' : Node), Tabs n s.node → (∀ q, s.send.getLsbD q = n.tx.reg.getLsbD (s.cur + q)) →
      B s.cur s.buf → sendRun env k s = some n' →
      Tabs n n' ∧ ∃ evs, n'.log = evs ++ s.node.log ∧
        ∀ f ok, Ev.frame f ok ∈ evs → ∃ p b, n.tx.reg.getLsbD p = true ∧ B p b ∧ f = frameAt env n p b := by
  intro k
  induction k with
  | zero =>
    intro s n' ht _ _ h
    unfold sendRun at h
    split at h
    · rw [← Option.some.inj h]
      exact ⟨ht, [], rfl, fun _ _ h => by cases h⟩
    · cases h
  | succ k ih =>
    intro s n' ht hs hb h
    unfold sendRun at h
    unfold sendStep at h
    by_cases h0 : s.send = 0
    · rw [if_pos h0] at h
      rw [← Option.some.inj h]
      exact ⟨ht, [], rfl, fun _ _ h => by cases h⟩
    rw [if_neg h0] at h
    have hshift : ∀ q, (s.send >>> 1).getLsbD q = n.tx.reg.getLsbD (s.cur + 1 + q) := by
      intro q
      rw [shift_bit, hs, show s.cur + (q + 1) = s.cur + 1 + q from by omega]
    by_cases h1 : s.cur ≤ s.node.tx.last ∧ s.send.getLsbD 0 = false
    · rw [if_pos h1] at h
      exact ih { s with cur := s.cur + 1, send := s.send >>> 1 } n' ht hshift (up _ _ _ (Nat.le_succ _) hb) h
    rw [if_neg h1] at h
    by_cases h2 : s.send.getLsbD 0 = true
    · rw [if_pos h2] at h
      dsimp only at h
      have hbit : n.tx.reg.getLsbD s.cur = true := by
        have := hs 0
        rw [h2] at this
        exact this.symm
      obtain ⟨ht1, h3⟩ := sendOne_frames (env := env) s.node s.cur s.buf
      have ht2 := ht.trans ht1
      have hb2 : B (s.cur + 1) (sendOne env s.node (s.cur / 4) (s.cur % 4) s.buf).2 := by
        rcases h3 with h3 | h3
        · rw [h3.1]; exact up _ _ _ (Nat.le_succ _) hb
        · rw [h3.1, bufAt_congr ht]; exact next _ _ hbit hb
      obtain ⟨ht', evs, he, hf⟩ := ih _ n' ht2 hshift hb2 h
      refine ⟨ht', ?_⟩
      dsimp only at he
      rcases h3 with ⟨_, h3⟩ | ⟨_, h3 | ⟨ok, h3⟩⟩
      · exact ⟨evs, by rw [he, h3], hf⟩
      · exact ⟨evs, by rw [he, h3], hf⟩
      · refine ⟨evs ++ [.frame (frameAt env s.node s.cur s.buf) ok], by rw [he, h3]; simp, ?_⟩
        intro f ok' hm
        rcases List.mem_append.1 hm with hm | hm
        · exact hf f ok' hm
        · have hm := List.mem_singleton.1 hm
          injection hm with e _
          exact ⟨s.cur, s.buf, hbit, hb, by rw [e, frameAt_congr ht]⟩
    · rw [if_neg h2] at h
      exact ih s n' ht hs hb h

/-- what a process request does -/
theorem request_frames {n n' : Node} (B : Nat → List Byte → Prop)
    (up : ∀ p q b, p ≤ q → B p b → B q b) (h0 : B 0 env.garbage)
    (next : ∀ p b, n.tx.reg.getLsbD p = true → B p b → B (p + 1) (bufAt env n p b)) (h : sendProcessData env n = some n') :
    Tabs n n' ∧ ∃ evs, n'.log = evs ++ n.log ∧
      ∀ f ok, Ev.frame f ok ∈ evs → ∃ p b, n.tx.reg.getLsbD p = true ∧ B p b ∧ f = frameAt env n p b :=
  sendRun_frames n B up next 32 _ n' (.refl n) (fun q => by rw [Nat.zero_add]) h0 h

theorem rightAt_of {n : Node} {p : Nat} {b : List Byte} (h : Entered n p) : RightAt env n p (frameAt env n p b) := by
  obtain ⟨k, h1, h2⟩ := h
  refine ⟨rfl, rfl, b, _, ⟨k, h1, rfl⟩, ?_⟩
  unfold frameAt
  rw [h2]
  rfl

/-- All places entered: every frame is right. -/
theorem request_right {n n' : Node} (hs : ∀ p, n.tx.reg.getLsbD p = true → Entered n p) (h : sendProcessData env n = some n') :
    ∃ evs, n'.log = evs ++ n.log ∧ ∀ f ok, Ev.frame f ok ∈ evs → ∃ p, n.tx.reg.getLsbD p = true ∧ RightAt env n p f := by
  obtain ⟨_, evs, he, hf⟩ := request_frames (fun _ _ => True) (fun _ _ _ _ _ => trivial) trivial (fun _ _ _ _ => trivial) h
  refine ⟨evs, he, fun f ok hm => ?_⟩
  obtain ⟨p, b, hp, _, e⟩ := hf f ok hm
  rw [e]
  exact ⟨p, hp, rightAt_of (hs p hp)⟩

theorem Held.up {n : Node} {p q : Nat} {b : List Byte} (h : p ≤ q) (k : Held env n p b) : Held env n q b := by
  cases k with
  | stack => exact .stack q
  | made h1 h2 h3 h4 => exact .made (Nat.lt_of_lt_of_le h1 h) h2 h3 h4

/-- All places but one entered, and that one with the dummy: the frame of that one is stale, the others are right. -/
theorem request_window {n n' : Node} {x : Nat} (hs : ∀ p, n.tx.reg.getLsbD p = true → p ≠ x → Entered n p)
    (hx : (n.rows (x / 4)).txMainSync (x % 4) = .dummy) (h : sendProcessData env n = some n') :
    ∃ evs, n'.log = evs ++ n.log ∧ ∀ f ok, Ev.frame f ok ∈ evs →
      (∃ p, p ≠ x ∧ n.tx.reg.getLsbD p = true ∧ RightAt env n p f) ∨ StaleAt env n x f := by
  have hbx : ∀ b, bufAt env n x b = b := fun b => by unfold bufAt; rw [hx]; rfl
  obtain ⟨_, evs, he, hf⟩ := request_frames (Held env n) (fun _ _ _ h k => Held.up h k) (.stack 0) (fun p b hp hb => by
    by_cases e : p = x
    · rw [e, hbx, ← e]; exact Held.up (Nat.le_succ _) hb
    · obtain ⟨k, h1, h2⟩ := hs p hp e
      refine .made (Nat.lt_succ_self p) hp hb ⟨k, h1, ?_⟩
      unfold bufAt
      rw [h2]
      rfl) h
  refine ⟨evs, he, fun f ok hm => ?_⟩
  obtain ⟨p, b, hp, hb, e⟩ := hf f ok hm
  rw [e]
  by_cases ep : p = x
  · refine .inr ?_
    rw [ep] at hb ⊢
    refine ⟨rfl, rfl, b, hb, ?_⟩
    unfold frameAt
    rw [hx]
    rfl
  · exact .inl ⟨p, ep, hp, rightAt_of (hs p hp ep)⟩

/-! ## Every state of a call -/

/-- `P` holds now and after each of the steps. -/
def Along (env : Env) (on : Bool) (tp : Nat) (P : List Mic → Sw → Prop) : List Mic → Sw → Prop
  | [], s => P [] s
  | m :: l, s => P (m :: l) s ∧ Along env on tp P l (exec env on tp m s)

theorem Along.now {on : Bool} {tp : Nat} {P : List Mic → Sw → Prop} {l : List Mic} {s : Sw} (h : Along env on tp P l s) : P l s := by
  cases l with
  | nil => exact h
  | cons m l => exact h.1

/-- the tables and the copied register are the same -/
structure Eqv (s s' : Sw) : Prop where
  rows : s'.n.rows = s.n.rows
  tx : s'.n.tx = s.n.tx
  tmp : s'.tmp = s.tmp

theorem callRx_tabs (n : Node) (c : Conv) (d : List Byte) (p l : Nat) :
    (n.callRx env c d p l).1.rows = n.rows ∧ (n.callRx env c d p l).1.tx = n.tx := by
  unfold callRx
  split <;> exact ⟨rfl, rfl⟩

theorem Eqv.exec {s s' : Sw} (h : Eqv s s') (on : Bool) (tp : Nat) (m : Mic) : Eqv (exec env on tp m s) (exec env on tp m s') := by
  obtain ⟨h1, h2, h3⟩ := h
  cases m with
  | clear i =>
    refine ⟨?_, ?_, h3⟩
    · show (callRx ..).1.rows = (callRx ..).1.rows
      rw [(callRx_tabs ..).1, (callRx_tabs ..).1, h1]
    · show (callRx ..).1.tx = (callRx ..).1.tx
      rw [(callRx_tabs ..).2, (callRx_tabs ..).2, h2]
  | regRd i => exact ⟨h1, h2, by simp only [Node.exec, h2]⟩
  | regWr => exact ⟨h1, by simp only [Node.exec, h2, h3], h3⟩
  | _ => exact ⟨by simp only [Node.exec, setRow, h1], h2, h3⟩

theorem Along.eqv {on : Bool} {tp : Nat} {P : List Mic → Sw → Prop} (hP : ∀ l s s', Eqv s s' → P l s → P l s') :
    ∀ {l : List Mic} {s s' : Sw}, Eqv s s' → Along env on tp P l s → Along env on tp P l s'
  | [], _, _, e, h => hP _ _ _ e h
  | m :: _, _, _, e, h => ⟨hP _ _ _ e h.1, Along.eqv hP (e.exec on tp m) h.2⟩

/-- Only the main loop and process requests. -/
def Requests (es : List SwEv) : Prop := ∀ e ∈ es, e = .main ∨ e = .request

theorem Along.run {on : Bool} {tp : Nat} {P : List Mic → Sw → Prop} (hP : ∀ l s s', Eqv s s' → P l s → P l s') :
    ∀ {es : List SwEv} {w v : Switch}, Requests es → Along env on tp P w.todo w.toSw → w.run env on tp es = some v →
      Along env on tp P v.todo v.toSw
  | [], w, v, _, h, hr => by rw [← Option.some.inj hr]; exact h
  | e :: es, w, v, he, h, hr => by
    simp only [Switch.run, Option.bind_eq_some_iff] at hr
    obtain ⟨w1, h1, h2⟩ := hr
    refine Along.run hP (fun e' h' => he e' (List.mem_cons_of_mem _ h')) ?_ h2
    rcases he e (List.mem_cons_self ..) with e0 | e0
    · rw [e0] at h1
      simp only [Switch.step] at h1
      split at h1
      · rw [← Option.some.inj h1]; exact h
      · rename_i m l hl
        rw [← Option.some.inj h1]
        rw [hl] at h
        exact h.2
    · rw [e0] at h1
      simp only [Switch.step, Option.map_eq_some_iff] at h1
      obtain ⟨n', h3, h4⟩ := h1
      obtain ⟨ht, _⟩ := request_frames (fun _ _ => True) (fun _ _ _ _ _ => trivial) trivial (fun _ _ _ _ => trivial) h3
      rw [← h4]
      exact h.eqv hP ⟨ht.rows, ht.tx, rfl⟩

/-- steps which touch neither the send register nor the transmit conversions -/
def Quiet : Mic → Prop
  | .regRd _ => False
  | .regWr => False
  | .txDlc _ => False
  | .txConv _ => False
  | _ => True

/-- what matters for process requests -/
structure Same (n n' : Node) : Prop where
  tx : n'.tx = n.tx
  main : ∀ x, (n'.rows x).txMain = (n.rows x).txMain
  sync : ∀ x, (n'.rows x).txMainSync = (n.rows x).txMainSync

theorem Same.refl (n : Node) : Same n n := ⟨rfl, fun _ => rfl, fun _ => rfl⟩
theorem Same.trans {a b c : Node} (h : Same a b) (k : Same b c) : Same a c :=
  ⟨k.tx.trans h.tx, fun x => (k.main x).trans (h.main x), fun x => (k.sync x).trans (h.sync x)⟩

theorem Same.setRow (n : Node) (tp : Nat) (f : Row → Row) (h1 : ∀ r, (f r).txMain = r.txMain) (h2 : ∀ r, (f r).txMainSync = r.txMainSync) :
    Same n (n.setRow tp f) := by
  have hr : ∀ x, (n.setRow tp f).rows x = if x = tp then f (n.rows tp) else n.rows x := fun _ => rfl
  refine ⟨rfl, fun x => ?_, fun x => ?_⟩
  · rw [hr]; split
    · rename_i e; rw [h1, e]
    · rfl
  · rw [hr]; split
    · rename_i e; rw [h2, e]
    · rfl

theorem exec_txDlc (on : Bool) (tp i : Nat) (s : Sw) : Same s.n (exec env on tp (.txDlc i) s).n :=
  .setRow s.n tp (fun r => { r with txDlcSync := upd r.txDlcSync i (if on then r.txDlc i else 0) }) (fun _ => rfl) (fun _ => rfl)

theorem exec_quiet (on : Bool) (tp : Nat) (m : Mic) (hm : Quiet m) (s : Sw) : Same s.n (exec env on tp m s).n := by
  cases m with
  | regRd i => cases hm
  | regWr => cases hm
  | txConv i => cases hm
  | flag => exact ⟨rfl, fun _ => rfl, fun _ => rfl⟩
  | call => exact ⟨rfl, fun _ => rfl, fun _ => rfl⟩
  | txCount => exact .setRow s.n tp (fun r => { r with txObjSync := if on then r.txObj else 0 }) (fun _ => rfl) (fun _ => rfl)
  | txDlc i => cases hm
  | rxCount => exact .setRow s.n tp (fun r => { r with rxObjSync := if on then r.rxObj else 0 }) (fun _ => rfl) (fun _ => rfl)
  | rxDlc i => exact .setRow s.n tp (fun r => { r with rxDlcSync := upd r.rxDlcSync i (if on then r.rxDlc i else 0) }) (fun _ => rfl) (fun _ => rfl)
  | rxConv i => exact .setRow s.n tp (fun r => { r with rxMainSync := upd r.rxMainSync i (if on then r.rxMain i else .dummy) }) (fun _ => rfl) (fun _ => rfl)
  | clear i =>
    have h := callRx_tabs (env := env) s.n ((s.n.rows tp).rxMain i) zeros8 ((s.n.rows tp).rx i) ((s.n.rows tp).rxDlc i)
    exact ⟨h.2, fun x => congrArg (fun r => (r x).txMain) h.1, fun x => congrArg (fun r => (r x).txMainSync) h.1⟩

theorem Along.quiet {on : Bool} {tp : Nat} {P : List Mic → Sw → Prop} {rest : List Mic} :
    ∀ {l : List Mic} {s : Sw}, (∀ m ∈ l, Quiet m) → (∀ m l' s', Quiet m → Same s.n s'.n → P (m :: l') s') →
      (∀ s', Same s.n s'.n → Along env on tp P rest s') → Along env on tp P (l ++ rest) s
  | [], s, _, _, hr => hr s (.refl _)
  | m :: l, s, hq, hP, hr => by
    have e := exec_quiet (env := env) on tp m (hq m (List.mem_cons_self ..)) s
    exact ⟨hP _ _ _ (hq m (List.mem_cons_self ..)) (.refl _),
      Along.quiet (fun m hm => hq m (List.mem_cons_of_mem _ hm)) (fun m l' s' hm h => hP m l' s' hm (e.trans h))
      (fun s' h => hr s' (e.trans h))⟩

theorem rx_quiet (r : Nat) : ∀ m ∈ (List.range r).flatMap rxMics, Quiet m := by
  intro m hm
  obtain ⟨i, _, h⟩ := List.mem_flatMap.1 hm
  simp only [rxMics, List.mem_cons, List.not_mem_nil, or_false] at h
  rcases h with h | h <;> rw [h] <;> trivial

theorem clear_quiet (r : Nat) : ∀ m ∈ (List.range r).map Mic.clear, Quiet m := by
  intro m hm
  obtain ⟨i, _, h⟩ := List.mem_map.1 hm
  rw [← h]; trivial

theorem Entered.same {n n' : Node} (h : Same n n') {p : Nat} (k : Entered n p) : Entered n' p := by
  obtain ⟨c, h1, h2⟩ := k
  exact ⟨c, by rw [h.main]; exact h1, by rw [h.sync]; exact h2⟩

theorem Entered.eqv {s s' : Sw} (h : Eqv s s') {p : Nat} (k : Entered s.n p) : Entered s'.n p := by
  unfold Entered
  rw [h.rows]
  exact k

/-- The main loop is between the two writes for object `i`. -/
def Between (i : Nat) (l : List Mic) : Prop := l.head? = some (.txDlc i) ∨ l.head? = some (.txConv i)

/-! ### Switching on -/

/-- what is known while a module is switched on; `R0` and `S0`: register and conversions at the beginning -/
def POn (tp : Nat) (R0 : BitVec 32) (S0 : Nat → Conv) (l : List Mic) (s : Sw) : Prop :=
  (∀ p, s.n.tx.reg.getLsbD p = true → Entered s.n p ∨ ∃ i, i < 4 ∧ p = 4 * tp + i ∧ Between i l) ∧
  (∀ i, Between i l → (s.n.rows tp).txMainSync i = S0 i) ∧
  (∀ p, s.n.tx.reg.getLsbD p = true → R0.getLsbD p = true ∨ p / 4 = tp) ∧
  (∀ p, R0.getLsbD p = true → s.n.tx.reg.getLsbD p = true)

theorem POn.eqv {tp : Nat} {R0 : BitVec 32} {S0 : Nat → Conv} (l : List Mic) (s s' : Sw) (h : Eqv s s') (k : POn tp R0 S0 l s) :
    POn tp R0 S0 l s' := by
  unfold POn
  rw [h.tx, h.rows]
  exact ⟨fun p hp => (k.1 p hp).imp_left (Entered.eqv h), k.2.1, k.2.2⟩

/-- between two objects -/
structure IOn (tp : Nat) (R0 : BitVec 32) (S0 : Nat → Conv) (is : List Nat) (n : Node) : Prop where
  all : ∀ p, n.tx.reg.getLsbD p = true → Entered n p
  old : ∀ j ∈ is, (n.rows tp).txMainSync j = S0 j
  app : ∀ j ∈ is, ∃ k, (n.rows tp).txMain j = .app k
  sub : ∀ p, n.tx.reg.getLsbD p = true → R0.getLsbD p = true ∨ p / 4 = tp
  sup : ∀ p, R0.getLsbD p = true → n.tx.reg.getLsbD p = true

theorem IOn.same {tp : Nat} {R0 : BitVec 32} {S0 : Nat → Conv} {is : List Nat} {n n' : Node} (h : IOn tp R0 S0 is n) (k : Same n n') :
    IOn tp R0 S0 is n' := by
  refine ⟨fun p hp => ?_, fun j hj => by rw [k.sync]; exact h.old j hj, fun j hj => by rw [k.main]; exact h.app j hj, ?_, ?_⟩
  · rw [k.tx] at hp
    exact Entered.same k (h.all p hp)
  · rw [k.tx]; exact h.sub
  · rw [k.tx]; exact h.sup

theorem IOn.pon {tp : Nat} {R0 : BitVec 32} {S0 : Nat → Conv} {is : List Nat} {s : Sw} (h : IOn tp R0 S0 is s.n) (l : List Mic)
    (hl : ∀ i, ¬ Between i l) : POn tp R0 S0 l s :=
  ⟨fun p hp => .inl (h.all p hp), fun i hi => absurd hi (hl i), h.sub, h.sup⟩

theorem setRow_conv (n : Node) (tp i : Nat) (c : Row → Conv) (x j : Nat) :
    ((n.setRow tp fun r => { r with txMainSync := upd r.txMainSync i (c r) }).rows x).txMainSync j =
      if x = tp ∧ j = i then c (n.rows tp) else (n.rows x).txMainSync j := by
  have hr : (n.setRow tp fun r => { r with txMainSync := upd r.txMainSync i (c r) }).rows x =
      if x = tp then { n.rows tp with txMainSync := upd (n.rows tp).txMainSync i (c (n.rows tp)) } else n.rows x := rfl
  rw [hr]
  by_cases e : x = tp
  · rw [if_pos e]
    by_cases e2 : j = i
    · rw [if_pos ⟨e, e2⟩]
      show (if j = i then _ else _) = _
      rw [if_pos e2]
    · rw [if_neg (fun h => e2 h.2), e]
      show (if j = i then _ else _) = _
      rw [if_neg e2]
  · rw [if_neg e, if_neg (fun h => e h.1)]

theorem setRow_main (n : Node) (tp i : Nat) (c : Row → Conv) (x : Nat) :
    ((n.setRow tp fun r => { r with txMainSync := upd r.txMainSync i (c r) }).rows x).txMain = (n.rows x).txMain := by
  have hr : (n.setRow tp fun r => { r with txMainSync := upd r.txMainSync i (c r) }).rows x =
      if x = tp then { n.rows tp with txMainSync := upd (n.rows tp).txMainSync i (c (n.rows tp)) } else n.rows x := rfl
  rw [hr]
  by_cases e : x = tp
  · rw [if_pos e, e]
  · rw [if_neg e]

theorem pos_eq {p tp i : Nat} (hi : i < 4) : (p / 4 = tp ∧ p % 4 = i) ↔ p = 4 * tp + i := by omega

/-- one object is switched on -/
theorem Along.blockOn {tp : Nat} {R0 : BitVec 32} {S0 : Nat → Conv} {i : Nat} {is : List Nat} {rest : List Mic} {s : Sw}
    (hi : i < 4) (htp : tp < 8) (hn : i ∉ is) (h : IOn tp R0 S0 (i :: is) s.n)
    (hr : ∀ s', IOn tp R0 S0 is s'.n → Along env true tp (POn tp R0 S0) rest s') :
    Along env true tp (POn tp R0 S0) (txMics i ++ rest) s := by
  have hbit : ∀ p, (s.n.tx.reg ||| ((1#32 <<< i) <<< (4 * tp))).getLsbD p = (s.n.tx.reg.getLsbD p || decide (p = 4 * tp + i)) := by
    intro p
    rw [BitVec.getLsbD_or, one_shift_bit i tp p (by omega)]
  have nb : ∀ j l, ¬ Between j (.regRd i :: l) := by
    intro j l hb
    rcases hb with hb | hb <;> simp at hb
  have nb2 : ∀ j l, ¬ Between j (.regWr :: l) := by
    intro j l hb
    rcases hb with hb | hb <;> simp at hb
  have own : ∀ j l, Between j (.txDlc i :: l) → j = i := by
    intro j l hb
    rcases hb with hb | hb <;> simp at hb
    exact hb.symm
  have own2 : ∀ j l, Between j (.txConv i :: l) → j = i := by
    intro j l hb
    rcases hb with hb | hb <;> simp at hb
    exact hb.symm
  -- between the writes
  have mid : ∀ (n : Node) (l : List Mic) (t : BitVec 32), Between i l → (∀ j, Between j l → j = i) →
      Same { s.n with tx := { s.n.tx with reg := s.n.tx.reg ||| ((1#32 <<< i) <<< (4 * tp)) } } n → POn tp R0 S0 l ⟨n, t⟩ := by
    intro n l t hb ho hs
    have hbits : ∀ p, n.tx.reg.getLsbD p = (s.n.tx.reg.getLsbD p || decide (p = 4 * tp + i)) := fun p => by rw [hs.tx]; exact hbit p
    refine ⟨fun p hp => ?_, fun j hj => ?_, fun p hp => ?_, fun p hp => ?_⟩
    · rw [hbits, Bool.or_eq_true, decide_eq_true_eq] at hp
      rcases hp with hp | hp
      · obtain ⟨k, h1, h2⟩ := h.all p hp
        exact .inl ⟨k, by rw [hs.main]; exact h1, by rw [hs.sync]; exact h2⟩
      · exact .inr ⟨i, hi, hp, hb⟩
    · rw [ho j hj, hs.sync]
      exact h.old i (List.mem_cons_self ..)
    · rw [hbits, Bool.or_eq_true, decide_eq_true_eq] at hp
      rcases hp with hp | hp
      · exact h.sub p hp
      · exact .inr (by omega)
    · rw [hbits, h.sup p hp]; rfl
  refine ⟨h.pon _ (fun j => nb j _), h.pon _ (fun j => nb2 j _), mid _ _ _ (.inl rfl) (fun j => own j _) (.refl _),
    mid _ _ _ (.inr rfl) (fun j => own2 j _) (exec_txDlc (env := env) true tp i
      ⟨{ s.n with tx := { s.n.tx with reg := s.n.tx.reg ||| ((1#32 <<< i) <<< (4 * tp)) } }, s.n.tx.reg ||| ((1#32 <<< i) <<< (4 * tp))⟩), hr _ ?_⟩
  have hs := exec_txDlc (env := env) true tp i
      ⟨{ s.n with tx := { s.n.tx with reg := s.n.tx.reg ||| ((1#32 <<< i) <<< (4 * tp)) } }, s.n.tx.reg ||| ((1#32 <<< i) <<< (4 * tp))⟩
  have e0 : (exec env true tp (.txConv i) (exec env true tp (.txDlc i) (exec env true tp .regWr (exec env true tp (.regRd i) s)))).n =
    (exec env true tp (.txDlc i) ⟨{ s.n with tx := { s.n.tx with reg := s.n.tx.reg ||| ((1#32 <<< i) <<< (4 * tp)) } },
      s.n.tx.reg ||| ((1#32 <<< i) <<< (4 * tp))⟩).n.setRow tp fun r => { r with txMainSync := upd r.txMainSync i (r.txMain i) } := rfl
  rw [e0]
  generalize (exec env true tp (.txDlc i) ⟨{ s.n with tx := { s.n.tx with reg := s.n.tx.reg ||| ((1#32 <<< i) <<< (4 * tp)) } },
      s.n.tx.reg ||| ((1#32 <<< i) <<< (4 * tp))⟩).n = n at *
  dsimp only at hs
  have hbits : ∀ p, (n.setRow tp fun r => { r with txMainSync := upd r.txMainSync i (r.txMain i) }).tx.reg.getLsbD p =
      (s.n.tx.reg.getLsbD p || decide (p = 4 * tp + i)) := fun p => by
    show n.tx.reg.getLsbD p = _
    rw [hs.tx]; exact hbit p
  refine ⟨fun p hp => ?_, fun j hj => ?_, fun j hj => ?_, fun p hp => ?_, fun p hp => ?_⟩
  · rw [hbits, Bool.or_eq_true, decide_eq_true_eq] at hp
    by_cases e : p = 4 * tp + i
    · obtain ⟨k, hk⟩ := h.app i (List.mem_cons_self ..)
      have e1 := (pos_eq (p := p) (tp := tp) hi).2 e
      refine ⟨k, ?_, ?_⟩
      · rw [setRow_main, hs.main, e1.1, e1.2]; exact hk
      · rw [setRow_conv n tp i (fun r => r.txMain i), if_pos e1, hs.main]; exact hk
    · obtain ⟨k, h1, h2⟩ := h.all p (hp.resolve_right e)
      refine ⟨k, ?_, ?_⟩
      · rw [setRow_main, hs.main]; exact h1
      · rw [setRow_conv n tp i (fun r => r.txMain i), if_neg (fun h => e ((pos_eq hi).1 h)), hs.sync]; exact h2
  · rw [setRow_conv n tp i (fun r => r.txMain i), if_neg (fun hh : tp = tp ∧ j = i => hn (hh.2 ▸ hj)), hs.sync]
    exact h.old j (List.mem_cons_of_mem _ hj)
  · rw [setRow_main, hs.main]
    exact h.app j (List.mem_cons_of_mem _ hj)
  · rw [hbits, Bool.or_eq_true, decide_eq_true_eq] at hp
    rcases hp with hp | hp
    · exact h.sub p hp
    · exact .inr (by omega)
  · rw [hbits, h.sup p hp]; rfl

theorem Along.blocksOn {tp : Nat} {R0 : BitVec 32} {S0 : Nat → Conv} {rest : List Mic} (htp : tp < 8) :
    ∀ {is : List Nat} {s : Sw}, (∀ i ∈ is, i < 4) → is.Nodup → IOn tp R0 S0 is s.n →
      (∀ s', IOn tp R0 S0 [] s'.n → Along env true tp (POn tp R0 S0) rest s') →
      Along env true tp (POn tp R0 S0) (is.flatMap txMics ++ rest) s
  | [], s, _, _, h, hr => hr s h
  | i :: is, s, h4, hd, h, hr => by
    rw [List.flatMap_cons, List.append_assoc]
    exact Along.blockOn (h4 i (List.mem_cons_self ..)) htp (List.nodup_cons.1 hd).1 h (fun s' h' =>
      Along.blocksOn htp (fun j hj => h4 j (List.mem_cons_of_mem _ hj)) (List.nodup_cons.1 hd).2 h' hr)

theorem quiet_between {m : Mic} (h : Quiet m) (l : List Mic) (i : Nat) : ¬ Between i (m :: l) := by
  intro hb
  rcases hb with hb | hb
  · injection hb with hb; rw [hb] at h; exact h
  · injection hb with hb; rw [hb] at h; exact h

theorem head_quiet : ∀ m ∈ [Mic.flag, Mic.call, Mic.txCount], Quiet m := by
  intro m hm
  simp only [List.mem_cons, List.not_mem_nil, or_false] at hm
  rcases hm with h | h | h <;> rw [h] <;> trivial

theorem program_pon {n : Node} {tp t r : Nat} (htp : tp < 8) (h4 : t ≤ 4) (hn : ∀ p, n.tx.reg.getLsbD p = true → Entered n p)
    (ha : ∀ i < t, ∃ k, (n.rows tp).txMain i = .app k) :
    Along env true tp (POn tp n.tx.reg (n.rows tp).txMainSync) (program true t r) { n := n } := by
  have h0 : IOn tp n.tx.reg (n.rows tp).txMainSync (List.range t) n :=
    ⟨hn, fun _ _ => rfl, fun j hj => ha j (List.mem_range.1 hj), fun _ h => .inl h, fun _ h => h⟩
  have key : ∀ {is : List Nat} (l rest : List Mic) (s : Sw), (∀ m ∈ l, Quiet m) → IOn tp n.tx.reg (n.rows tp).txMainSync is s.n →
      (∀ s', IOn tp n.tx.reg (n.rows tp).txMainSync is s'.n → Along env true tp (POn tp n.tx.reg (n.rows tp).txMainSync) rest s') →
      Along env true tp (POn tp n.tx.reg (n.rows tp).txMainSync) (l ++ rest) s := fun l rest s hl hi hr =>
    Along.quiet hl (fun m l' s' hm e => (hi.same e).pon _ (quiet_between hm l')) (fun s' e => hr s' (hi.same e))
  unfold program
  simp only [List.append_assoc, if_true]
  refine key _ _ _ head_quiet h0 (fun s' h' => Along.blocksOn htp (fun i hi => by have := List.mem_range.1 hi; omega) List.nodup_range h'
    (fun s2 h2 => key _ _ _ ?_ h2 (fun s3 h3 => key _ _ _ (rx_quiet r) h3 (fun s4 h4 => ?_))))
  · intro m hm
    rw [List.mem_singleton.1 hm]; trivial
  · exact h4.pon [] (fun i hb => by rcases hb with hb | hb <;> cases hb)

/-! ### Switching off -/

/-- what is known while a module is switched off -/
def POff (tp : Nat) (R0 : BitVec 32) (_ : List Mic) (s : Sw) : Prop :=
  (∀ p, s.n.tx.reg.getLsbD p = true → Entered s.n p) ∧
  (∀ p, s.n.tx.reg.getLsbD p = true → R0.getLsbD p = true) ∧
  (∀ p, R0.getLsbD p = true → p / 4 ≠ tp → s.n.tx.reg.getLsbD p = true)

theorem POff.eqv {tp : Nat} {R0 : BitVec 32} (l : List Mic) (s s' : Sw) (h : Eqv s s') (k : POff tp R0 l s) : POff tp R0 l s' := by
  unfold POff
  rw [h.tx]
  exact ⟨fun p hp => Entered.eqv h (k.1 p hp), k.2⟩

theorem POff.same {tp : Nat} {R0 : BitVec 32} {l l' : List Mic} {s s' : Sw} (h : Same s.n s'.n) (k : POff tp R0 l s) : POff tp R0 l' s' := by
  unfold POff
  rw [h.tx]
  exact ⟨fun p hp => Entered.same h (k.1 p hp), k.2⟩

theorem Along.blockOff {tp : Nat} {R0 : BitVec 32} {i : Nat} {rest : List Mic} {s : Sw}
    (hi : i < 4) (htp : tp < 8) (h : POff tp R0 [] s)
    (hr : ∀ s', POff tp R0 [] s' → Along env false tp (POff tp R0) rest s') :
    Along env false tp (POff tp R0) (txMics i ++ rest) s := by
  have hbit : ∀ p, (s.n.tx.reg &&& ~~~ ((1#32 <<< i) <<< (4 * tp))).getLsbD p = true ↔ s.n.tx.reg.getLsbD p = true ∧ p ≠ 4 * tp + i := by
    intro p
    rw [BitVec.getLsbD_and, BitVec.getLsbD_not, one_shift_bit i tp p (by omega), Bool.and_eq_true, Bool.and_eq_true]
    simp only [decide_eq_true_eq, Bool.not_eq_true', decide_eq_false_iff_not]
    constructor
    · exact fun h => ⟨h.1, h.2.2⟩
    · exact fun h => ⟨h.1, BitVec.lt_of_getLsbD h.1, h.2⟩
  have h2 : POff tp R0 [] ⟨{ s.n with tx := { s.n.tx with reg := s.n.tx.reg &&& ~~~ ((1#32 <<< i) <<< (4 * tp)) } },
      s.n.tx.reg &&& ~~~ ((1#32 <<< i) <<< (4 * tp))⟩ := by
    refine ⟨fun p hp => h.1 p ((hbit p).1 hp).1, fun p hp => h.2.1 p ((hbit p).1 hp).1, fun p hp hne => (hbit p).2 ⟨h.2.2 p hp hne, ?_⟩⟩
    omega
  have hs := exec_txDlc (env := env) false tp i ⟨{ s.n with tx := { s.n.tx with reg := s.n.tx.reg &&& ~~~ ((1#32 <<< i) <<< (4 * tp)) } },
      s.n.tx.reg &&& ~~~ ((1#32 <<< i) <<< (4 * tp))⟩
  refine ⟨h, h, h2, h2.same hs, hr _ ?_⟩
  have e0 : (exec env false tp (.txConv i) (exec env false tp (.txDlc i) (exec env false tp .regWr (exec env false tp (.regRd i) s)))).n =
    (exec env false tp (.txDlc i) ⟨{ s.n with tx := { s.n.tx with reg := s.n.tx.reg &&& ~~~ ((1#32 <<< i) <<< (4 * tp)) } },
      s.n.tx.reg &&& ~~~ ((1#32 <<< i) <<< (4 * tp))⟩).n.setRow tp fun r => { r with txMainSync := upd r.txMainSync i .dummy } := rfl
  unfold POff
  rw [e0]
  generalize (exec env false tp (.txDlc i) ⟨{ s.n with tx := { s.n.tx with reg := s.n.tx.reg &&& ~~~ ((1#32 <<< i) <<< (4 * tp)) } },
      s.n.tx.reg &&& ~~~ ((1#32 <<< i) <<< (4 * tp))⟩).n = n at *
  dsimp only at hs
  have hb : ∀ p, (n.setRow tp fun r => { r with txMainSync := upd r.txMainSync i .dummy }).tx.reg.getLsbD p = true ↔
      s.n.tx.reg.getLsbD p = true ∧ p ≠ 4 * tp + i := fun p => by
    have e : (n.setRow tp fun r => { r with txMainSync := upd r.txMainSync i .dummy }).tx = n.tx := rfl
    rw [e, hs.tx]; exact hbit p
  refine ⟨fun p hp => ?_, fun p hp => h.2.1 p ((hb p).1 hp).1, fun p hp hne => (hb p).2 ⟨h.2.2 p hp hne, by omega⟩⟩
  obtain ⟨hp1, hp2⟩ := (hb p).1 hp
  obtain ⟨k, h3, h4⟩ := h.1 p hp1
  refine ⟨k, ?_, ?_⟩
  · rw [setRow_main n tp i (fun _ => .dummy), hs.main]; exact h3
  · rw [setRow_conv n tp i (fun _ => .dummy), if_neg (fun hh => hp2 ((pos_eq hi).1 hh)), hs.sync]; exact h4

theorem Along.blocksOff {tp : Nat} {R0 : BitVec 32} {rest : List Mic} (htp : tp < 8) :
    ∀ {is : List Nat} {s : Sw}, (∀ i ∈ is, i < 4) → POff tp R0 [] s →
      (∀ s', POff tp R0 [] s' → Along env false tp (POff tp R0) rest s') →
      Along env false tp (POff tp R0) (is.flatMap txMics ++ rest) s
  | [], s, _, h, hr => hr s h
  | i :: is, s, h4, h, hr => by
    rw [List.flatMap_cons, List.append_assoc]
    exact Along.blockOff (h4 i (List.mem_cons_self ..)) htp h (fun s' h' =>
      Along.blocksOff htp (fun j hj => h4 j (List.mem_cons_of_mem _ hj)) h' hr)

theorem program_poff {n : Node} {tp t r : Nat} (htp : tp < 8) (h4 : t ≤ 4) (hn : ∀ p, n.tx.reg.getLsbD p = true → Entered n p) :
    Along env false tp (POff tp n.tx.reg) (program false t r) { n := n } := by
  have h0 : POff tp n.tx.reg [] ({ n := n } : Sw) := ⟨hn, fun _ h => h, fun _ h _ => h⟩
  have key : ∀ (l rest : List Mic) (s : Sw), (∀ m ∈ l, Quiet m) → POff tp n.tx.reg [] s →
      (∀ s', POff tp n.tx.reg [] s' → Along env false tp (POff tp n.tx.reg) rest s') →
      Along env false tp (POff tp n.tx.reg) (l ++ rest) s := fun l rest s hl hi hr =>
    Along.quiet hl (fun m l' s' _ e => hi.same e) (fun s' e => hr s' (hi.same e))
  unfold program
  simp only [List.append_assoc, Bool.false_eq_true, if_false]
  refine key _ _ _ head_quiet h0 (fun s' h' => Along.blocksOff htp (fun i hi => by have := List.mem_range.1 hi; omega) h'
    (fun s2 h2 => key _ _ _ ?_ h2 (fun s3 h3 => key _ _ _ (rx_quiet r) h3 (fun s4 h4 => ?_))))
  · intro m hm
    rw [List.mem_singleton.1 hm]; trivial
  · rw [← List.append_nil ((List.range r).map Mic.clear)]
    exact key _ _ _ (clear_quiet r) h4 (fun s5 h5 => h5)

/-! ## The claim -/

/-- **C135, the part which holds: switching off.**  While a module is switched off, process requests may come at any point of the
call: every frame they make is that of an object whose bit is still set, with the data the application's conversion made for it; the
objects answered were all answered before the call, and those of the other modules still are. -/
theorem C135_off_partial {n : Node} {tp : Nat} (htp : tp < 8) (h4 : (n.rows tp).txObj ≤ 4)
    (hn : ∀ p, n.tx.reg.getLsbD p = true → Entered n p) {es : List SwEv} (he : Requests es) {w : Switch}
    (h : (Switch.start n false tp).run env false tp es = some w) :
    (∀ n', sendProcessData env w.n = some n' →
      ∃ evs, n'.log = evs ++ w.n.log ∧ ∀ f ok, Ev.frame f ok ∈ evs → ∃ p, w.n.tx.reg.getLsbD p = true ∧ RightAt env w.n p f) ∧
    (∀ p, w.n.tx.reg.getLsbD p = true → n.tx.reg.getLsbD p = true) ∧
    (∀ p, p / 4 ≠ tp → w.n.tx.reg.getLsbD p = n.tx.reg.getLsbD p) := by
  have h1 := (Along.run (env := env) POff.eqv he (program_poff htp h4 hn) h).now
  refine ⟨fun n' hr => request_right h1.1 hr, h1.2.1, fun p hp => ?_⟩
  rw [Bool.eq_iff_iff]
  exact ⟨h1.2.1 p, fun hb => h1.2.2 p hb hp⟩

/-- **C135, the part which holds: switching on, exactly.**  A request which comes when the main loop is not between the two writes for one
of the objects is answered with right frames only.  One which comes between the two writes for object `i` is answered with right frames
for all other objects; a frame under the identifier of object `i` carries what the frame buffer contained: the data of an object answered
before it, or what was on the stack. -/
theorem C135_on {n : Node} {tp : Nat} (htp : tp < 8) (h4 : (n.rows tp).txObj ≤ 4)
    (hn : ∀ p, n.tx.reg.getLsbD p = true → Entered n p) (ha : ∀ i < (n.rows tp).txObj, ∃ k, (n.rows tp).txMain i = .app k)
    {es : List SwEv} (he : Requests es) {w : Switch} (h : (Switch.start n true tp).run env true tp es = some w)
    {n' : Node} (hr : sendProcessData env w.n = some n') :
    ((∀ i, ¬ Between i w.todo) → ∃ evs, n'.log = evs ++ w.n.log ∧ ∀ f ok, Ev.frame f ok ∈ evs →
      ∃ p, w.n.tx.reg.getLsbD p = true ∧ RightAt env w.n p f) ∧
    (∀ i < 4, Between i w.todo → (n.rows tp).txMainSync i = .dummy → ∃ evs, n'.log = evs ++ w.n.log ∧ ∀ f ok, Ev.frame f ok ∈ evs →
      (∃ p, p ≠ 4 * tp + i ∧ w.n.tx.reg.getLsbD p = true ∧ RightAt env w.n p f) ∨ StaleAt env w.n (4 * tp + i) f) ∧
    (∀ p, p / 4 ≠ tp → w.n.tx.reg.getLsbD p = n.tx.reg.getLsbD p) := by
  have h1 := (Along.run (env := env) POn.eqv he (program_pon htp h4 hn ha) h).now
  refine ⟨fun hb => request_right (fun p hp => ?_) hr, fun i hi hb hd => request_window (fun p hp hne => ?_) ?_ hr, fun p hp => ?_⟩
  · rcases h1.1 p hp with h2 | ⟨i, _, _, h2⟩
    · exact h2
    · exact absurd h2 (hb i)
  · rcases h1.1 p hp with h2 | ⟨j, _, e, h2⟩
    · exact h2
    · refine absurd ?_ hne
      have : j = i := by
        rcases hb with hb | hb <;> rcases h2 with h2 | h2 <;> rw [hb] at h2 <;> cases h2 <;> rfl
      rw [e, this]
  · rw [show (4 * tp + i) / 4 = tp from by omega, show (4 * tp + i) % 4 = i from by omega, h1.2.1 i hb]
    exact hd
  · rw [Bool.eq_iff_iff]
    exact ⟨fun hb => (h1.2.2.1 p hb).resolve_right hp, fun hb => h1.2.2.2 p hb⟩

/-- The hypothesis of the two theorems holds in every state the calls of the interface lead to, if the applications' objects all have a
conversion. -/
theorem entered_of_good {n : Node} {t : Table} (h : Good env n t)
    (hc : ∀ m ∈ t.mods, m.on = true → ∀ o < m.txObj, ∃ k, m.main o = .app k ∧ m.conv o = .app k) :
    ∀ p, n.tx.reg.getLsbD p = true → Entered n p := by
  intro p hp
  obtain ⟨m, h1, h2, h3⟩ := (h.sim.bits p).1 hp
  have r := h.sim.row _ m h1
  obtain ⟨k, h4, h5⟩ := hc m (List.mem_of_getElem? h1) h2 _ h3
  exact ⟨k, by rw [r.main]; exact h4, by rw [r.conv _ h3]; exact h5⟩

/-- modules 5 and 9, the second silent -/
def swNode : Node := Node.run exEnv (exInit exEnv) (exOps ++ [.silentAwake 1 0])

theorem sw_bits {P : Nat → Prop} {r : BitVec 32} (h : ∀ p < 32, r.getLsbD p = true → P p) : ∀ p, r.getLsbD p = true → P p :=
  fun p hp => h p (BitVec.lt_of_getLsbD hp) hp

theorem swNode_entered : ∀ p, swNode.tx.reg.getLsbD p = true → Entered swNode p :=
  sw_bits fun p h1 h2 => ⟨0, (show ∀ p < 32, swNode.tx.reg.getLsbD p = true →
    (swNode.rows (p / 4)).txMain (p % 4) = .app 0 ∧ (swNode.rows (p / 4)).txMainSync (p % 4) = .app 0 from by decide +kernel) p h1 h2⟩

/-- `C135_on` applies: the second of two modules is switched on. -/
example : swNode.tx.reg = 3 ∧ (swNode.rows 1).txObj ≤ 4 ∧ (∀ p, swNode.tx.reg.getLsbD p = true → Entered swNode p) ∧
    (∀ i < (swNode.rows 1).txObj, ∃ k, (swNode.rows 1).txMain i = .app k) ∧
    (∀ i < 3, (swNode.rows 1).txMainSync i = .dummy) ∧ Requests (List.replicate 5 SwEv.main ++ [.request] ++ List.replicate 5 .main) :=
  ⟨by decide +kernel, by decide +kernel, swNode_entered,
   fun i hi => ⟨0, (show ∀ i < 3, (swNode.rows 1).txMain i = .app 0 from by decide +kernel) i (by
     have : (swNode.rows 1).txObj = 3 := by decide +kernel
     omega)⟩, by decide +kernel, by
    intro e he
    simp only [List.mem_append, List.mem_replicate, List.mem_singleton] at he
    rcases he with (h | h) | h
    · exact .inl h.2
    · exact .inr h
    · exact .inl h.2⟩

/-- `C135_off_partial` applies: the first of them is switched off. -/
example : ((Switch.start swNode false 0).run exEnv false 0 (List.replicate 6 .main ++ [.request])).map
    (fun w => (w.todo.length, w.n.tx.reg, (w.n.log.take 1).filterMap frameOf)) = some (12, 2, [⟨0x411, 2, [111, 112]⟩]) := by decide +kernel

/-- **C135 as claimed is false: switching on.**  Module 9 is switched on in the main loop; a process request comes when the bit of its
first object is set and its conversion not yet entered.  The frame of module 9 (identifier 0x420) carries the data of module 5, not those
of its own object (130, 131). -/
theorem C135_counterexample_stale :
    Reach exEnv swNode ∧
    ((Switch.start swNode true 1).run exEnv true 1 (List.replicate 5 .main ++ [.request])).map
      (fun w => ((w.n.log.take 3).filterMap frameOf, w.n.mem ((w.n.rows 1).tx 0))) =
    some ([⟨0x420, 2, [111, 112]⟩, ⟨0x411, 2, [111, 112]⟩, ⟨0x410, 2, [110, 111]⟩], [130, 131]) :=
  ⟨exReach _ (by simp [exOps, Basic, exTpl]), by decide +kernel⟩

/-- modules 5 and 9, the first silent -/
def swNode2 : Node := Node.run exEnv (exInit exEnv) (exOps ++ [.silentAwake 0 0])

/-- as `exEnv`, new numbers make a module silent -/
def swEnv : Env := { exEnv with voter := some fun _ _ _ => .validButSilent }
/-- as `exEnv`, new numbers make a module awake -/
def swEnv1 : Env := { exEnv with voter := some fun _ _ _ => .valid }

/-- **C135 as claimed is false: number changes.**  Module 5 is switched on in the main loop; when `send_reg` has been read and not yet
written, the receive interrupt gives module 9 the number 10 and, on the application's vote, makes it silent.  The write brings the bits
of that module back: it is silent and answers every process request from now on, with the data of the other module. -/
theorem C135_counterexample_silent :
    ((Switch.start swNode2 true 0).run swEnv true 0 (List.replicate 4 .main ++ [.number 1 10] ++ List.replicate 15 .main ++ [.request])).map
      (fun w => (w.todo.length, w.n.silent 1, (w.n.log.take 5).filterMap frameOf)) =
    some (0, 0, [⟨0x426, 2, [111, 112]⟩, ⟨0x425, 2, [111, 112]⟩, ⟨0x424, 2, [111, 112]⟩,
      ⟨0x411, 2, [111, 112]⟩, ⟨0x410, 2, [110, 111]⟩]) := by decide +kernel

/-- The other way round: module 5 is switched off; meanwhile the interrupt makes module 9 awake with the new number 10.  The module is
awake and no object of it ever answers. -/
theorem C135_counterexample_awake :
    ((Switch.start swNode false 0).run swEnv1 false 0 (List.replicate 4 .main ++ [.number 1 10] ++ List.replicate 20 .main)).map
      (fun w => (w.todo.length, w.n.silent 1, w.n.tx.reg)) = some (0, 1, 0) := by decide +kernel

end Node
end LiCan
