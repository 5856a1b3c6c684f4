import Verif.Lemmas.SlaveErrq
import Verif.Lemmas.SlaveHw
/-! # Frames sent by system messages -/
namespace LiCan
open Node Spec
namespace Spec

/-- The frames handed to the driver, latest first. -/
def framesOf (l : List Ev) : List Frame := l.filterMap fun e => match e with
  | .frame f _ => some f
  | _ => none

/-- The number belongs to a row of the table and that row is awake. -/
def awakeNr (env : Env) (n : Node) (nr : Nat) : Bool :=
  ((List.range env.maxMod).find? fun i => (n.rows i).nr == nr).any fun i => n.silent i == 1

/-- The errors waiting in the queue, oldest first. -/
def pending (sz : Nat) (q : ErrQ) : List ErrEntry :=
  (List.range q.getCount).map fun i => q.buf ((q.outIdx + i) % sz)

end Spec
namespace Slave

theorem framesOf_append (a b : List Ev) : framesOf (a ++ b) = framesOf a ++ framesOf b := List.filterMap_append ..

/-- the frame of a system message on behalf of a number -/
def sysFrames (env : Env) (n : Node) (nr : Nat) (d : List Byte) : List Frame :=
  if awakeNr env n nr then [⟨sysTxId nr, 8, d⟩] else []

theorem awakeNr_eq (env : Env) (n : Node) (nr : Nat) :
    awakeNr env n nr = match n.findNr env nr with | some tp => n.silent tp == 1 | none => false := by
  unfold awakeNr findNr
  have : (fun i => (n.rows i).nr == nr) = (fun i => decide ((n.rows i).nr = nr)) := by
    funext i; rw [Bool.eq_iff_iff]; simp
  rw [this]
  cases (List.range env.maxMod).find? (fun i => decide ((n.rows i).nr = nr)) <;> rfl

theorem awakeNr_light {env : Env} {n n' : Node} (l : Light n n') (nr : Nat) : awakeNr env n' nr = awakeNr env n nr := by
  unfold awakeNr; rw [l.rows, l.silent]

theorem sysFrames_light {env : Env} {n n' : Node} (l : Light n n') (nr : Nat) (d : List Byte) :
    sysFrames env n' nr d = sysFrames env n nr d := by
  unfold sysFrames; rw [awakeNr_light l]

theorem sendSys_frames (env : Env) (n : Node) (nr : Nat) (d : List Byte) :
    framesOf (n.sendSys env nr d).1.log = sysFrames env n nr d ++ framesOf n.log ∧ (n.sendSys env nr d).2 = E.ok := by
  unfold sysFrames
  rw [awakeNr_eq]
  unfold Node.sendSys
  cases n.findNr env nr with
  | none => exact ⟨rfl, rfl⟩
  | some tp =>
    simp only
    by_cases h : n.silent tp = 1
    · rw [if_pos h, if_pos (by simp [h])]; exact ⟨rfl, rfl⟩
    · rw [if_neg h, if_neg (by simp [h])]; exact ⟨rfl, rfl⟩

/-- what the queue delivers is well defined: the read index is inside -/
structure QInv (sz : Nat) (q : ErrQ) : Prop where
  out : q.ready = true → 0 < sz → q.outIdx < sz
  cap : q.count ≤ sz

theorem QInv.boot (sz : Nat) : QInv sz ErrQ.boot := ⟨fun h => by simp [ErrQ.boot] at h, Nat.zero_le _⟩

theorem QInv.init {sz : Nat} {q : ErrQ} : QInv sz (q.init sz) := ⟨fun _ h => h, Nat.zero_le _⟩

theorem QInv.step {sz : Nat} {q : ErrQ} (h : QInv sz q) (o : ErrOp) : QInv sz (q.step sz o).1 := by
  cases o with
  | report mc ai p g sg nr =>
    simp only [ErrQ.step, ErrQ.sendFull]
    have hi : QInv sz (if q.ready then q else q.init sz) := by
      split
      · exact h
      · exact .init
    generalize (if q.ready then q else q.init sz) = q' at hi
    have hc : ∀ q : ErrQ, QInv sz q → QInv sz (q.incCount sz) := by
      intro q h; unfold ErrQ.incCount; split
      · next hl => exact ⟨h.out, by show q.count + 1 ≤ sz; omega⟩
      · exact h
    have hw : ∀ q : ErrQ, QInv sz q → ∀ e, QInv sz (q.write sz e) := by
      intro q h e; unfold ErrQ.write; split
      · exact ⟨h.out, h.cap⟩
      · exact ⟨h.out, h.cap⟩
    split
    · exact hi
    · split
      · exact hi
      · have h1 := hw _ (hc _ hi) ⟨mc, p, nr, ai, sg + (g <<< 4)⟩
        generalize ((q'.incCount sz).write sz ⟨mc, p, nr, ai, sg + (g <<< 4)⟩) = q1 at h1
        have h2 : QInv sz { q1 with inIdx := (q1.inIdx + 1) % sz } := ⟨h1.out, h1.cap⟩
        split
        · have h3 := hw _ (hc _ h2) ⟨canMsgCode E.errQueueFull, prioCritical, nr, 0, extractGroupSubgroup (canMsgCode E.errQueueFull)⟩
          exact ⟨h3.out, h3.cap⟩
        · exact h2
  | get =>
    simp only [ErrQ.step, ErrQ.getFull]
    split
    · exact h
    · next hr =>
      split
      · exact h
      · split
        · exact ⟨fun _ hz => Nat.mod_lt _ hz, by show q.count - 1 ≤ sz; have := h.cap; omega⟩
        · exact ⟨h.out, h.cap⟩

theorem QInv.run {sz : Nat} (ops : List ErrOp) : ∀ {q : ErrQ}, QInv sz q → QInv sz (q.run sz ops).1 := by
  induction ops with
  | nil => intro q h; exact h
  | cons o os ih => intro q h; exact ih (h.step o)

/-- taking one entry -/
theorem getFull_pending {sz : Nat} {q : ErrQ} (h : QInv sz q) (hc : q.getCount ≠ 0) :
    ∃ x q', q.getFull sz = (q', E.ok, some x) ∧ pending sz q = x :: pending sz q' ∧ q'.getCount + 1 = q.getCount := by
  have hr : q.ready = true := by
    cases hr : q.ready
    · simp [ErrQ.getCount, hr] at hc
    · rfl
  have hcc : q.getCount = q.count := by simp [ErrQ.getCount, hr]
  have hz : 0 < sz := by have := h.cap; omega
  have ho := h.out hr hz
  refine ⟨q.buf q.outIdx, { q with outIdx := (q.outIdx + 1) % sz, count := q.count - 1 }, ?_, ?_, ?_⟩
  · unfold ErrQ.getFull
    rw [if_neg (by simp [hr]), if_neg (by omega), if_pos ho]
  · obtain ⟨k, hk⟩ : ∃ k, q.count = k + 1 := ⟨q.count - 1, by omega⟩
    unfold pending
    simp only [ErrQ.getCount, hr, if_true, hk, Nat.add_sub_cancel]
    rw [List.range_succ_eq_map, List.map_cons, List.map_map]
    congr 1
    · rw [Nat.add_zero, Nat.mod_eq_of_lt ho]
    · apply List.map_congr_left
      intro i _
      show q.buf ((q.outIdx + (i + 1)) % sz) = q.buf (((q.outIdx + 1) % sz + i) % sz)
      rw [Nat.mod_add_mod]; congr 2; omega
  · simp only [ErrQ.getCount, hr, if_true]; omega

/-- the number an error is sent for -/
def errNr (n : Node) (e : ErrEntry) : Nat := if 124 < e.moduleNr ∨ e.moduleNr < 2 then (n.rows 0).nr else e.moduleNr

/-- the frame sent for a queued error -/
def errFrames (env : Env) (n : Node) (e : ErrEntry) : List Frame := sysFrames env n (errNr n e) (errorBytes e)

theorem errFrames_light {env : Env} {n n' : Node} (l : Light n n') (e : ErrEntry) : errFrames env n' e = errFrames env n e := by
  unfold errFrames errNr; rw [sysFrames_light l, l.rows]

theorem sendOneError_frames {env : Env} {n : Node} (h : QInv env.qSize n.errq) (hc : n.errq.getCount ≠ 0) :
    ∃ x, pending env.qSize n.errq = x :: pending env.qSize (sendOneError env n).1.errq ∧
      framesOf (sendOneError env n).1.log = errFrames env n x ++ framesOf n.log ∧
      (sendOneError env n).1.errq.getCount + 1 = n.errq.getCount ∧
      QInv env.qSize (sendOneError env n).1.errq ∧ (sendOneError env n).2 = E.ok := by
  obtain ⟨x, q', h1, h2, h3⟩ := getFull_pending h hc
  have e : sendOneError env n = sendError env { n with errq := q' } x := by
    unfold sendOneError; rw [h1]; simp
  have hq : (sendOneError env n).1.errq = q' := by
    rw [e]; unfold sendError; exact sendSys_errq ..
  have hi : QInv env.qSize q' := by
    have := h.step .get
    simp only [ErrQ.step, h1] at this
    exact this
  refine ⟨x, by rw [hq]; exact h2, ?_, by rw [hq]; exact h3, by rw [hq]; exact hi, ?_⟩
  · rw [e]
    have := (sendSys_frames env { n with errq := q' } (errNr { n with errq := q' } x) (errorBytes x)).1
    exact this
  · rw [e]; exact (sendSys_frames ..).2

/-- the loop ends and sends one message per queued error -/
theorem drain_frames {env : Env} (k : Nat) : ∀ (r : Node × Err), QInv env.qSize r.1.errq → r.1.errq.getCount ≤ k →
    ∃ r', drain env k r = some r' ∧ r'.1.errq.getCount = 0 ∧
      framesOf r'.1.log = ((pending env.qSize r.1.errq).flatMap (errFrames env r.1)).reverse ++ framesOf r.1.log ∧
      (r.2 = E.ok → r'.2 = E.ok) := by
  induction k with
  | zero =>
    intro r h hk
    refine ⟨r, ?_, by omega, ?_, id⟩
    · unfold drain; rw [if_pos (by omega)]
    · have : r.1.errq.getCount = 0 := by omega
      simp [pending, this]
  | succ k ih =>
    intro r h hk
    by_cases hc : r.1.errq.getCount = 0
    · refine ⟨r, ?_, hc, ?_, id⟩
      · unfold drain; rw [if_pos hc]
      · simp [pending, hc]
    · obtain ⟨x, h1, h2, h3, h4, h5⟩ := sendOneError_frames h hc
      obtain ⟨r', g1, g2, g3, g4⟩ := ih (sendOneError env r.1) h4 (by omega)
      refine ⟨r', ?_, g2, ?_, fun _ => g4 h5⟩
      · unfold drain; rw [if_neg hc]; exact g1
      · rw [g3, h2, h1, List.flatMap_cons, List.reverse_append]
        have : errFrames env (sendOneError env r.1).1 = errFrames env r.1 := by
          funext y; exact errFrames_light (sendOneError_light env r.1) y
        rw [this]
        have hx : (errFrames env r.1 x).reverse = errFrames env r.1 x := by
          unfold errFrames sysFrames; split <;> rfl
        rw [hx, List.append_assoc]

/-! ## Answers to requests -/

theorem TableInv.find {env : Env} {n : Node} (h : TableInv env n) {i : Nat} (hi : (n.rows i).typ ≠ []) :
    n.findNr env (n.rows i).nr = some i := by
  obtain ⟨t, g, hn⟩ := h
  have hl := (g.sim.registered i).1 hi
  have hlen := g.sim.len
  unfold findNr
  rw [List.find?_range_eq_some]
  refine ⟨by simp, by simp; omega, ?_⟩
  intro j hj
  simp only [Bool.not_eq_eq_eq_not, Bool.not_true, decide_eq_false_iff_not]
  intro e
  have hj' := (g.sim.registered j).2 (by omega)
  have := TableInv.distinct ⟨t, g, hn⟩ hj' hi e
  omega

theorem TableInv.reg {env : Env} {n : Node} (h : TableInv env n) {i : Nat} (hi : i < n.nrMod) : (n.rows i).typ ≠ [] := by
  obtain ⟨t, g, hn⟩ := h
  exact (g.sim.registered i).2 (by have := g.nrMod; omega)

theorem TableInv.awake {env : Env} {n : Node} (h : TableInv env n) {i : Nat} (hi : (n.rows i).typ ≠ []) :
    awakeNr env n (n.rows i).nr = (n.silent i == 1) := by
  rw [awakeNr_eq, h.find hi]

theorem statusAckn_frames (env : Env) (s : Slave) (tp : Nat) (hm : s.link.mode ≠ .listen) (ht : tp < env.maxMod) :
    framesOf (statusAckn env s tp).1.node.log =
      sysFrames env s.node (s.node.rows tp).nr (statusBytes (s.node.rows tp).typ env.serial) ++ framesOf s.node.log ∧
    (statusAckn env s tp).2 = E.ok := by
  unfold statusAckn
  rw [if_neg hm, if_neg (by omega)]
  exact sendSys_frames ..

theorem versionAckn_frames (env : Env) (s : Slave) (tp : Nat) (hm : s.link.mode ≠ .listen) (ht : tp < env.maxMod) :
    framesOf (versionAckn env s tp).1.node.log =
      sysFrames env s.node (s.node.rows tp).nr (version2Bytes (u32 env.ident.1) (u32 env.ident.2)) ++
      (sysFrames env s.node (s.node.rows tp).nr (version1Bytes (u8 env.boot.1) (u16 env.boot.2) (u8 env.soft.1) (u16 env.soft.2)) ++
      framesOf s.node.log) ∧
    (versionAckn env s tp).2 = E.ok := by
  unfold versionAckn
  rw [if_neg hm, if_neg (by omega)]
  simp only
  have a := sendSys_frames env s.node (s.node.rows tp).nr (version1Bytes (u8 env.boot.1) (u16 env.boot.2) (u8 env.soft.1) (u16 env.soft.2))
  have l := Light.sendSys env s.node (s.node.rows tp).nr (version1Bytes (u8 env.boot.1) (u16 env.boot.2) (u8 env.soft.1) (u16 env.soft.2))
  generalize s.node.sendSys env (s.node.rows tp).nr (version1Bytes (u8 env.boot.1) (u16 env.boot.2) (u8 env.soft.1) (u16 env.soft.2)) = r at *
  rw [if_neg (by rw [a.2]; simp)]
  have b := sendSys_frames env r.1 (s.node.rows tp).nr (version2Bytes (u32 env.ident.1) (u32 env.ident.2))
  refine ⟨?_, b.2⟩
  rw [← a.1, ← sysFrames_light l]
  exact b.1

/-- all rows answer in order -/
theorem forRows_frames {env : Env} {f : Slave → Nat → Slave × Err} {g : Node → Nat → List Frame}
    (hf : ∀ s i, s.link.mode ≠ .listen → i < env.maxMod →
      framesOf (f s i).1.node.log = (g s.node i).reverse ++ framesOf s.node.log ∧ (f s i).2 = E.ok)
    (hk : ∀ s i, ∃ n, SentOnly s.node n ∧ (f s i).1 = { s with node := n })
    (hg : ∀ n n' i, Light n n' → g n' i = g n i) (is : List Nat) :
    ∀ s, s.link.mode ≠ .listen → (∀ i ∈ is, i < env.maxMod) →
      framesOf (forRows f is s).1.node.log = (is.flatMap (g s.node)).reverse ++ framesOf s.node.log ∧
      (forRows f is s).2 = E.ok := by
  induction is with
  | nil => intro s _ _; exact ⟨rfl, rfl⟩
  | cons i is ih =>
    intro s hm hi
    obtain ⟨h1, h2⟩ := hf s i hm (hi i (by simp))
    obtain ⟨n, l, e⟩ := hk s i
    simp only [forRows]
    rw [if_neg (by rw [h2]; simp)]
    have := ih (f s i).1 (by rw [e]; exact hm) (fun j hj => hi j (by simp [hj]))
    refine ⟨?_, this.2⟩
    rw [this.1, h1, List.flatMap_cons, List.reverse_append, List.append_assoc]
    have hg' : g (f s i).1.node = g s.node := by
      funext j; rw [e]; exact hg _ _ _ l.light
    rw [hg']

/-- in listen-only mode nothing is answered -/
theorem forRows_listen {env : Env} {f : Slave → Nat → Slave × Err} (hf : ∀ s i, s.link.mode = .listen → f s i = (s, E.ok))
    (is : List Nat) : ∀ s, s.link.mode = .listen → forRows f is s = (s, E.ok) := by
  induction is with
  | nil => intro s _; rfl
  | cons i is ih =>
    intro s hm
    simp only [forRows, hf s i hm]
    rw [if_neg (by simp)]
    exact ih s hm

end Slave
end LiCan
