import Verif.Lemmas.LegalStack
import Verif.Lemmas.StackExample
import Verif.Props.Driver
/-! # All frames of the stack are legal and reach the bus (C85) -/
namespace LiCan
open Spec
namespace Stack
open Node (exMem exTpl exEnv NrOk)

/-- The frames the stack handed to the driver with the answers, oldest first. -/
def handed (log : List Ev) : List (Frame × Bool) := log.reverse.filterMap fun e => match e with
  | .frame f ok => some (f, ok)
  | _ => none

/-- C85.  From power-on, through any history: every frame the stack hands to the driver has an identifier of eleven
bits, at most eight bytes and as many bytes as it announces.  (At most four modules, templates of at most eight
bytes, a voter that admits numbers 1..128 only, and numbers up to 128 in the calls of the application.) -/
theorem C85_all_frames_are_legal_partial (env : AEnv) (he : AEnvL env) (mem : Nat → List Byte) (info : XInfo)
    (hi : info.d.comp.nr ≤ 128) (is : List SIn) (hs : ∀ i ∈ is, SInL i) (s : Stack) (h : run env (boot mem info) is = some s)
    (f : Frame) (ok : Bool) (hf : Ev.frame f ok ∈ s.slv.node.log) : Legal f :=
  ((SL.boot mem hi).run he is hs h).node.2 f ok hf

theorem handed_mem {log : List Ev} {f : Frame} {b : Bool} (h : (f, b) ∈ handed log) : Ev.frame f b ∈ log := by
  obtain ⟨e, h1, h2⟩ := List.mem_filterMap.1 h
  rw [List.mem_reverse] at h1
  cases e <;> simp at h2
  obtain ⟨rfl, rfl⟩ := h2
  exact h1

theorem asked_mem (os : List DOp) : ∀ (bs : List Bool) (_ : bs.length = os.length) {b : Bool} {f : Frame}, DOp.send b f ∈ os → ∃ c, (f, c) ∈ asked os bs := by
  induction os with
  | nil => intro bs _ b f h; cases h
  | cons o os ih =>
    intro bs hl b f h
    cases bs with
    | nil => simp at hl
    | cons c bs =>
      have hl' : bs.length = os.length := by simpa using hl
      rcases List.mem_cons.1 h with h | h
      · subst h; exact ⟨c, by simp [asked]⟩
      · obtain ⟨d, hd⟩ := ih bs hl' h
        cases o with
        | send b' f' => exact ⟨d, List.mem_cons_of_mem _ hd⟩
        | next => exact ⟨d, hd⟩

theorem taken_asked (os : List DOp) : ∀ bs : List Bool, taken os bs = (asked os bs).filterMap fun p => if p.2 then some p.1 else none := by
  induction os with
  | nil => intro bs; rfl
  | cons o os ih =>
    intro bs
    cases bs with
    | nil => cases o <;> rfl
    | cons b bs =>
      cases o with
      | send c f => cases b <;> simp [taken, asked, ih]
      | next => simp [taken, asked, ih]

theorem drun_length (os : List DOp) : ∀ l : Line, (drun l os).2.length = os.length := by
  induction os with
  | nil => intro l; rfl
  | cons o os ih => intro l; simp [drun, ih]

/-- C85.  Joined with the driver of C84: whatever the interleaving with the completions of the controller, if the answers the
stack got are those of the driver, transmission is free of undefined behaviour, and the frames for which the stack got OK
are exactly those on the bus followed by those waiting, in order and unmodified. -/
theorem C85_frames_reach_the_bus_partial (env : AEnv) (he : AEnvL env) (mem : Nat → List Byte) (info : XInfo)
    (hi : info.d.comp.nr ≤ 128) (is : List SIn) (hs : ∀ i ∈ is, SInL i) (s : Stack) (h : run env (boot mem info) is = some s)
    (d : CpDrv) (hd : d.sent = []) (os : List DOp) (hb : BusyWhileWaiting ⟨[], []⟩ os)
    (ha : handed s.slv.node.log = asked os (drun ⟨[], []⟩ os).2) :
    ∃ d' bs, d.init.run os = some (d', bs) ∧ ∃ bus wait : List Frame, d'.sent.reverse.map CpDrv.frameOf = bus.map some ∧
      wait.length ≤ 16 ∧ bus ++ wait = (handed s.slv.node.log).filterMap fun p => if p.2 then some p.1 else none := by
  have hl : ∀ b f, DOp.send b f ∈ os → Legal f := by
    intro b f hm
    obtain ⟨c, hc⟩ := asked_mem os _ (drun_length os ⟨[], []⟩) hm
    rw [← ha] at hc
    exact C85_all_frames_are_legal_partial env he mem info hi is hs s h f c (handed_mem hc)
  obtain ⟨d', e, -⟩ := CpDrv.C84_transmit_path d hd os hl
  obtain ⟨d2, bs, e2, bus, wait, h1, h2, h3⟩ := CpDrv.C84_order d hd os hl hb
  rw [e] at e2
  injection e2 with e2
  injection e2 with e2 e3
  refine ⟨d', _, e, bus, wait, by rw [e2]; exact h1, h2, ?_⟩
  rw [h3, ← e3, ha, taken_asked]

/-- a configuration as asked for: numbers 2..124 are admitted -/
def exLg : AEnv := { exA with
  txConv := fun _ app dlc buf => ((app.take dlc ++ buf.drop dlc ++ List.replicate 8 0).take 8, E.ok)
  voter := some fun _ nr _ => if 2 ≤ nr ∧ nr ≤ 124 then .valid else .forbidden }

example : AEnvL exLg := by
  refine ⟨⟨by decide, rfl, ?_, _, rfl, ?_⟩, ?_⟩
  · intro k app d buf _
    simp [exLg]; omega
  · intro t nr act h
    by_cases hn : 2 ≤ nr ∧ nr ≤ 124
    · exact ⟨by omega, by omega⟩
    · rcases h with h | h <;> simp only [if_neg hn] at h <;> cases h
  · intro k c a ha
    have : a = .get := by
      simp only [exLg, exA] at ha
      split at ha
      · exact (List.mem_replicate.1 ha).2
      · cases ha
    subst this; trivial

/-- two modules; the first gets number 6; a process request, a status request, a denied tunnel -/
def exLgIn : List SIn := exSetup ++
  [.rx 5 2 8 0x12 false [0x20, 0, 6, 0, 0, 0, 0, 0], .rx 20 2 8 0x02 false [1, 0, 0, 0, 0, 0, 0, 0],
   .enqueue 9 3 [7, 8, 9, 10], .act (.uloadEnd 9)]

example : (∀ i ∈ exLgIn, SInL i) ∧ ((run exLg (boot exMem exInfo) exLgIn).map fun s => handed s.slv.node.log) =
    some [(⟨0x17, 8, [4, 77, 68, 65, 0, 0, 0, 0]⟩, true), (⟨0x23, 8, [4, 77, 68, 66, 0, 0, 0, 0]⟩, true),
      (⟨0x623, 3, [7, 8, 9]⟩, true), (⟨0x621, 8, [0x17, 0, 0, 0, 0, 0, 0, 0]⟩, true)] := by
  refine ⟨?_, by decide +kernel⟩
  intro i hi
  simp only [exLgIn, exSetup, Node.exOps, List.map_cons, List.map_nil, List.cons_append, List.nil_append, List.mem_cons, List.not_mem_nil, or_false] at hi
  rcases hi with h | h | h | h | h | h | h | h | h | h | h | h | h | h | h | h | h | h | h <;> subst h <;>
    simp [SInL, Slave.InL, Node.OpL, exTpl, ActL]

/-- the controller is busy with the first one when the second and the third are handed over -/
def exLgDrv : List DOp := [.send false ⟨0x17, 8, [4, 77, 68, 65, 0, 0, 0, 0]⟩, .send true ⟨0x23, 8, [4, 77, 68, 66, 0, 0, 0, 0]⟩,
  .send true ⟨0x623, 3, [7, 8, 9]⟩, .next, .send true ⟨0x621, 8, [0x17, 0, 0, 0, 0, 0, 0, 0]⟩]

example : BusyWhileWaiting ⟨[], []⟩ exLgDrv ∧ ((run exLg (boot exMem exInfo) exLgIn).map fun s => handed s.slv.node.log) =
    some (asked exLgDrv (drun ⟨[], []⟩ exLgDrv).2) := by
  exact ⟨by simp [BusyWhileWaiting, exLgDrv, dstep], by decide +kernel⟩

/-- C85 fails without a voter: one message sets the number of a module to 0, the status answers then have identifier 65535 and appear
on the bus as 0x7FF. -/
theorem C85_counterexample_number_zero : ∃ is s f, (∀ i ∈ is, SInL i) ∧ exA.voter = none ∧ run exA (boot exMem exInfo) is = some s ∧
    Ev.frame f true ∈ s.slv.node.log ∧ f.id = 65535 ∧ ¬ Legal f ∧
    (CpMsg.build f.id f.dlc f.data).bind CpDrv.frameOf = some { f with id := 0x7FF } := by
  have h : (run exA (boot exMem exInfo) [.init 250, .api (.table (.add (exTpl 65 2 2) 5 (fun j => 100 + j) (fun j => 110 + j))),
      .rx 5 2 8 0x12 false [0x20, 0, 0, 0, 0, 0, 0, 0], .rx 20 2 8 0x02 false [1, 0, 0, 0, 0, 0, 0, 0]]).any (fun s =>
      decide (Ev.frame ⟨65535, 8, [4, 77, 68, 65, 0, 0, 0, 0]⟩ true ∈ s.slv.node.log)) = true := by decide +kernel
  obtain ⟨s, h1, h2⟩ := (Option.any_eq_true ..).1 h
  refine ⟨_, s, _, ?_, rfl, h1, of_decide_eq_true h2, rfl, by decide, by decide⟩
  intro i hi
  simp only [List.mem_cons, List.not_mem_nil, or_false] at hi
  rcases hi with h | h | h | h <;> subst h <;> simp [SInL, Slave.InL, Node.OpL, exTpl]

/-- C85 fails for a template with nine bytes: the driver writes beyond its message. -/
theorem C85_counterexample_long_template : ∃ is s f, run exLg (boot exMem exInfo) is = some s ∧ Ev.frame f true ∈ s.slv.node.log ∧ f.dlc = 9 ∧
    CpMsg.build f.id f.dlc f.data = none := by
  have h : (run exLg (boot exMem exInfo) [.init 250, .api (.table (.add { exTpl 65 1 1 with txDlc := fun _ => 9 } 5 (fun j => 100 + j) (fun j => 110 + j))),
      .rx 5 0 1 0x01 false [0, 0, 0, 0, 0, 0, 0, 0]]).any (fun s =>
      s.slv.node.log.any (fun e => match e with | .frame f true => f.dlc == 9 | _ => false)) = true := by decide +kernel
  obtain ⟨s, h1, h2⟩ := (Option.any_eq_true ..).1 h
  obtain ⟨e, h3, h4⟩ := List.any_eq_true.1 h2
  split at h4
  · next f =>
    have h5 : f.dlc = 9 := by simpa using h4
    exact ⟨_, s, f, h1, h3, h5, CpDrv.C84_long_frame_is_undefined _ _ _ (by omega)⟩
  · cases h4

end Stack
end LiCan
