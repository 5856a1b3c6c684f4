import Verif.Model.ErrIrq
import Verif.Lemmas.ErrFifo
/-! # The error queue under interrupts: invariant -/
namespace LiCan
namespace ErrIrq
open Spec

/-- the first `n` members are the same -/
def Agree (n : Nat) (a b : ErrEntry) : Prop :=
  (0 < n → a.msgCode = b.msgCode) ∧ (1 < n → a.moduleNr = b.moduleNr) ∧ (2 < n → a.prio = b.prio) ∧
  (3 < n → a.addInfo = b.addInfo) ∧ (4 < n → a.group = b.group)

theorem Agree.zero (a b : ErrEntry) : Agree 0 a b :=
  ⟨fun h => absurd h (by omega), fun h => absurd h (by omega), fun h => absurd h (by omega),
    fun h => absurd h (by omega), fun h => absurd h (by omega)⟩

theorem Agree.eq {a b : ErrEntry} (h : Agree 5 a b) : a = b := by
  obtain ⟨h1, h2, h3, h4, h5⟩ := h
  cases a; cases b
  simp only [ErrEntry.mk.injEq]
  exact ⟨h1 (by omega), h3 (by omega), h2 (by omega), h4 (by omega), h5 (by omega)⟩

theorem Agree.set {k : Nat} {a b : ErrEntry} (hk : k < 5) (h : Agree k a b) : Agree (k + 1) (setMember k a b) b := by
  obtain ⟨h1, h2, h3, h4, h5⟩ := h
  have : k = 0 ∨ k = 1 ∨ k = 2 ∨ k = 3 ∨ k = 4 := by omega
  rcases this with rfl | rfl | rfl | rfl | rfl <;> simp [Agree, setMember] at * <;> simp_all

/-- the specification along a history: queue, write index one past the end, overrun -/
structure Tr where
  f   : Fifo
  e   : Bool
  bad : Bool

def Tr.step (sz : Nat) (t : Tr) (op : ErrOp) : Tr :=
  ⟨(t.f.step sz op).1, edgeStep sz t.f t.e op, t.bad || (t.e && op.accepted sz t.f)⟩

def track (sz : Nat) (t : Tr) (ops : List ErrOp) : Tr := ops.foldl (Tr.step sz) t

theorem track_f (sz : Nat) (ops : List ErrOp) : ∀ t : Tr, (track sz t ops).f = (Fifo.run sz t.f ops).1 := by
  induction ops with
  | nil => intro t; rfl
  | cons op ops ih => intro t; exact ih _

theorem track_bad (sz : Nat) (ops : List ErrOp) : ∀ t : Tr, (track sz t ops).bad = (t.bad || overruns sz t.f t.e ops) := by
  induction ops with
  | nil => intro t; simp [track, overruns]
  | cons op ops ih =>
    intro t
    have := ih (t.step sz op)
    unfold track at this ⊢
    rw [List.foldl_cons, this]
    simp only [Tr.step, overruns, edgeStep, stores, fills, Bool.or_assoc]

theorem fifo_run_snoc (sz : Nat) (ops : List ErrOp) (op : ErrOp) : ∀ f : Fifo,
    (Fifo.run sz f (ops ++ [op])).2 = (Fifo.run sz f ops).2 ++ [((Fifo.run sz f ops).1.step sz op).2] := by
  induction ops with
  | nil => intro f; rfl
  | cons a ops ih =>
    intro f
    show (f.step sz a).2 :: (Fifo.run sz (f.step sz a).1 (ops ++ [op])).2 = _
    rw [ih]
    rfl

/-- the state in which the entry of a report is being stored: `st` are the entries stored completely -/
structure Window (sz : Nat) (q : ErrQ) (pc : Nat) (ent : ErrEntry) (free : Int) (mark : Bool) (old : Nat) (f : Fifo)
    (e : Bool) (st : List ErrEntry) : Prop where
  lo : 2 ≤ pc
  hi : pc ≤ 9
  n3 : pc ≠ 3
  free0 : 0 ≤ free
  old : old + (if mark then 1 else 0) = st.length
  mfree : mark = true → free = 0
  noub : q.ub = false
  ready : q.ready = true
  started : f.started = true
  items : f.items = st ++ (if mark = true then [ent] else if free = 0 then [ent, fullMarker ent.moduleNr] else [ent])
  cap : f.items.length ≤ sz
  out : q.outIdx = f.popped % sz
  count : q.count = st.length + (if 2 < pc then 1 else 0)
  inn : q.inIdx = (q.outIdx + st.length) % sz
  edge0 : free = 0 → (e = true ↔ (q.outIdx + st.length + (if mark = true then 1 else 2)) % sz = 0)
  edge1 : free ≠ 0 → e = false
  cont : ∀ i (h : i < st.length), q.buf ((q.outIdx + i) % sz) = st[i]
  part : Agree (pc - 4) (q.buf q.inIdx) ent

/-- relation between the queue, the call of the task and the specification -/
def Mid (sz : Nat) (q : ErrQ) : Task → Fifo → Bool → Prop
  | .idle, f, e => ErrSim sz q f e
  | .get pc _ ent, f, e =>
    (pc = 0 ∧ ErrSim sz q f e) ∨ (pc = 1 ∧ f.started = true ∧ ErrSim sz q f e) ∨
    (2 ≤ pc ∧ pc ≤ 7 ∧ f.started = true ∧ ErrSim sz q f e ∧ ∃ hd tl, f.items = hd :: tl ∧ Agree (pc - 2) ent hd) ∨
    (pc = 8 ∧ f.started = true ∧ ErrSim sz { q with outIdx := f.popped % sz } f e ∧ q.outIdx = (f.popped + 1) % sz ∧
      ∃ tl, f.items = ent :: tl)
  | .send pc _ ent free mark old, f, e =>
    (pc = 0 ∧ mark = false ∧ ErrSim sz q f e) ∨
    (pc = 1 ∧ mark = false ∧ ent.prio ≠ 15 ∧ ErrSim sz q { f with started := true } e ∧
      (f.started = false → f.items = [] ∧ f.popped = 0 ∧ e = false)) ∨
    ∃ st, Window sz q pc ent free mark old f e st

/-- which interrupts are harmless -/
def Harmless (s : St) : Act → Prop
  | .irq (.report ..) => match s.task with
    | .send pc _ _ _ _ _ => pc ≤ 1
    | _ => True
  | .irq .get => match s.task with
    | .idle => True
    | .get .. => False
    | .send pc _ _ _ _ old => pc = 0 ∨ (pc = 1 ∧ 0 < s.q.count) ∨ (2 ≤ pc ∧ 0 < old)
  | _ => True

/-- invariant of a schedule -/
def Inv (sz : Nat) (s : St) : Prop :=
  let t := track sz ⟨{}, false, false⟩ (s.log.map (·.1))
  t.bad = true ∨ (s.log.map (·.2) = (Fifo.run sz {} (s.log.map (·.1))).2 ∧ Mid sz s.q s.task t.f t.e)

theorem Inv.keep {sz : Nat} {s s' : St} (h : Inv sz s) (hl : s'.log = s.log)
    (hm : ∀ f e, Mid sz s.q s.task f e → Mid sz s'.q s'.task f e) : Inv sz s' := by
  unfold Inv at *
  rw [hl]
  exact h.imp id fun ⟨h1, h2⟩ => ⟨h1, hm _ _ h2⟩

theorem Inv.push {sz : Nat} {s s' : St} (h : Inv sz s) (op : ErrOp) (o : ErrOut) (hl : s'.log = s.log ++ [(op, o)])
    (hm : ∀ f e, Mid sz s.q s.task f e → ¬ (e = true ∧ stores sz f op = true) →
      o = (f.step sz op).2 ∧ Mid sz s'.q s'.task (f.step sz op).1 (edgeStep sz f e op)) : Inv sz s' := by
  unfold Inv at *
  rw [hl]
  simp only [List.map_append, List.map_cons, List.map_nil, track, List.foldl_append, List.foldl_cons, List.foldl_nil]
    at h ⊢
  have hf := track_f sz (s.log.map (·.1)) ⟨{}, false, false⟩
  simp only [track] at hf
  generalize (s.log.map (·.1)).foldl (Tr.step sz) ⟨{}, false, false⟩ = t at *
  by_cases hb : (t.step sz op).bad = true
  · exact .inl hb
  · right
    simp only [Tr.step, Bool.or_eq_true, Bool.and_eq_true, not_or] at hb
    rcases h with h | ⟨h1, h2⟩
    · exact absurd h hb.1
    · obtain ⟨g1, g2⟩ := hm _ _ h2 hb.2
      refine ⟨?_, g2⟩
      rw [fifo_run_snoc, h1, ← hf, g1]

/-! ## Steps of interrupts -/

theorem sendFull_out (q : ErrQ) (sz o : Nat) (hr : q.ready = true) (mc : MsgCode) (ai : BitVec 8) (p : Prio)
    (g sg : BitVec 8) (nr : Nat) :
    ({ q with outIdx := o } : ErrQ).sendFull sz mc ai p g sg nr =
      ({ (q.sendFull sz mc ai p g sg nr).1 with outIdx := o }, (q.sendFull sz mc ai p g sg nr).2) := by
  obtain ⟨buf, i, u, c, r, ub⟩ := q
  simp only at hr
  subst hr
  simp only [ErrQ.sendFull, if_true, ErrQ.incCount, ErrQ.write]
  repeat' split
  all_goals first | rfl | (simp only at *; omega) | (exfalso; simp_all)

theorem sendFull_outIdx (q : ErrQ) (sz : Nat) (hr : q.ready = true) (mc : MsgCode) (ai : BitVec 8) (p : Prio)
    (g sg : BitVec 8) (nr : Nat) : (q.sendFull sz mc ai p g sg nr).1.outIdx = q.outIdx := by
  have := sendFull_out q sz q.outIdx hr mc ai p g sg nr
  have h2 := congrArg (fun r => r.1.outIdx) this
  exact h2

theorem step_started (sz : Nat) (f : Fifo) (mc : MsgCode) (ai : BitVec 8) (p : Prio) (g sg : BitVec 8) (nr : Nat) :
    ({ f with started := true } : Fifo).step sz (.report mc ai p g sg nr) = f.step sz (.report mc ai p g sg nr) ∧
    (f.step sz (.report mc ai p g sg nr)).1.started = true ∧
    (f.step sz (.report mc ai p g sg nr)).1.popped = f.popped ∧
    ∃ l, (f.step sz (.report mc ai p g sg nr)).1.items = f.items ++ l := by
  refine ⟨by simp only [Fifo.step], ?_, ?_, ?_⟩ <;> simp only [Fifo.step] <;> repeat' split
  all_goals first | rfl | exact ⟨[], (List.append_nil _).symm⟩ | exact ⟨_, rfl⟩

theorem mid_report {sz : Nat} {q : ErrQ} {t : Task} {f : Fifo} {e : Bool}
    (mc : MsgCode) (ai : BitVec 8) (p : Prio) (g sg : BitVec 8) (nr : Nat)
    (ha : match t with | .send pc _ _ _ _ _ => pc ≤ 1 | _ => True) (h : Mid sz q t f e)
    (hok : ¬ (e = true ∧ stores sz f (.report mc ai p g sg nr) = true)) :
    ((q.sendFull sz mc ai p g sg nr).2, none) = (f.step sz (.report mc ai p g sg nr)).2 ∧
    Mid sz (q.sendFull sz mc ai p g sg nr).1 t (f.step sz (.report mc ai p g sg nr)).1
      (edgeStep sz f e (.report mc ai p g sg nr)) := by
  obtain ⟨s1, s2, s3, l, s4⟩ := step_started sz f mc ai p g sg nr
  have base : ∀ {q f} , ErrSim sz q f e → ¬ (e = true ∧ stores sz f (.report mc ai p g sg nr) = true) →
      ((q.sendFull sz mc ai p g sg nr).2, none) = (f.step sz (.report mc ai p g sg nr)).2 ∧
      ErrSim sz (q.sendFull sz mc ai p g sg nr).1 (f.step sz (.report mc ai p g sg nr)).1
        (edgeStep sz f e (.report mc ai p g sg nr)) := fun h hok => errSim_step h _ hok
  cases t with
  | idle => exact base h hok
  | get pc reg ent =>
    rcases h with ⟨e0, h⟩ | ⟨e0, h1, h⟩ | ⟨e1, e2, h1, h, hd, tl, h2, h3⟩ | ⟨e0, h1, h, h2, tl, h3⟩
    · obtain ⟨g1, g2⟩ := base h hok
      exact ⟨g1, .inl ⟨e0, g2⟩⟩
    · obtain ⟨g1, g2⟩ := base h hok
      exact ⟨g1, .inr (.inl ⟨e0, s2, g2⟩)⟩
    · obtain ⟨g1, g2⟩ := base h hok
      exact ⟨g1, .inr (.inr (.inl ⟨e1, e2, s2, g2, hd, tl ++ l, by rw [s4, h2]; rfl, h3⟩))⟩
    · have hr : q.ready = true := by have := h.ready; rw [h1] at this; exact this
      obtain ⟨g1, g2⟩ := base h hok
      rw [sendFull_out q sz _ hr] at g1 g2
      refine ⟨g1, .inr (.inr (.inr ⟨e0, s2, ?_, ?_, tl ++ l, by rw [s4, h3]; rfl⟩))⟩
      · rw [s3]; exact g2
      · rw [s3, sendFull_outIdx q sz hr]; exact h2
  | send pc reg ent free mark old =>
    simp only at ha
    rcases h with ⟨e0, hm, h⟩ | ⟨e0, hm, hp, h, _⟩ | ⟨st, h⟩
    · obtain ⟨g1, g2⟩ := base h hok
      exact ⟨g1, .inl ⟨e0, hm, g2⟩⟩
    · obtain ⟨g1, g2⟩ := base h (by simpa [stores, ErrOp.accepted] using hok)
      rw [s1] at g1 g2
      refine ⟨g1, .inr (.inl ⟨e0, hm, hp, ?_, fun hn => ?_⟩)⟩
      · have : ({ (f.step sz (.report mc ai p g sg nr)).1 with started := true } : Fifo) =
            (f.step sz (.report mc ai p g sg nr)).1 := by
          generalize (f.step sz (.report mc ai p g sg nr)).1 = f' at *
          cases f'; simp_all
        rw [this]
        exact g2
      · rw [s2] at hn; exact absurd hn (by simp)
    · have := h.lo; omega

theorem succ_mod (m sz : Nat) (h : 0 < sz) :
    ((m + 1) % sz = 0 → m % sz + 1 = sz) ∧ ((m + 1) % sz ≠ 0 → m % sz + 1 = (m + 1) % sz) := by
  have hlt := Nat.mod_lt m h
  have e : (m + 1) % sz = (m % sz + 1) % sz := by rw [Nat.mod_add_mod]
  rcases Nat.lt_or_ge (m % sz + 1) sz with h1 | h1
  · rw [e, Nat.mod_eq_of_lt h1]
    exact ⟨fun h => by omega, fun _ => rfl⟩
  · have h2 : m % sz + 1 = sz := by omega
    rw [e, h2, Nat.mod_self]
    exact ⟨fun _ => rfl, fun h => absurd rfl h⟩

theorem window_get {sz : Nat} {q : ErrQ} {pc : Nat} {ent : ErrEntry} {free : Int} {mark : Bool} {old : Nat} {f : Fifo}
    {e : Bool} {st : List ErrEntry} (h : Window sz q pc ent free mark old f e st) (ho : 0 < old) :
    (q.getFull sz).2 = (f.step sz .get).2 ∧
    ∃ st', Window sz (q.getFull sz).1 pc ent free mark (old - 1) (f.step sz .get).1 e st' := by
  cases st with
  | nil => have := h.old; simp at this; omega
  | cons x st =>
    have hc := h.count
    have hcap := h.cap
    have hit := h.items
    rw [List.cons_append] at hit
    rw [hit] at hcap
    simp only [List.length_cons] at hc hcap
    have hsz : 0 < sz := by omega
    have holt : q.outIdx < sz := by rw [h.out]; exact Nat.mod_lt _ hsz
    have hb0 : q.buf q.outIdx = x := by
      have := h.cont 0 (by simp)
      simpa [Nat.mod_eq_of_lt holt] using this
    have hmod : ∀ k, ((q.outIdx + 1) % sz + k) % sz = (q.outIdx + (k + 1)) % sz := by
      intro k; rw [Nat.mod_add_mod]; congr 1; omega
    have hg : q.getFull sz = ({ q with outIdx := (q.outIdx + 1) % sz, count := q.count - 1 }, E.ok, some x) := by
      unfold ErrQ.getFull
      rw [if_neg (by simp [h.ready]), if_neg (by omega), if_pos holt, hb0]
    have hf : f.step sz .get = ({ f with items := st ++ (if mark = true then [ent] else if free = 0 then
        [ent, fullMarker ent.moduleNr] else [ent]), popped := f.popped + 1 }, E.ok, some x) := by
      simp only [Fifo.step, h.started, Bool.true_eq_false, if_false]
      rw [hit]
    rw [hg, hf]
    refine ⟨rfl, st, ?_⟩
    exact {
      lo := h.lo, hi := h.hi, n3 := h.n3, free0 := h.free0, mfree := h.mfree, noub := h.noub, ready := h.ready
      started := h.started, items := rfl, edge1 := h.edge1
      old := by have := h.old; simp only [List.length_cons] at this; omega
      cap := by simp only; omega
      out := by simp only [h.out]; rw [Nat.mod_add_mod]
      count := by simp only; omega
      inn := by
        simp only
        rw [h.inn, hmod]
        rfl
      edge0 := by
        intro h0
        simp only
        rw [h.edge0 h0, Nat.add_assoc, Nat.add_assoc, hmod]
        simp only [List.length_cons]
        constructor <;> intro h' <;> rw [← h'] <;> congr 1 <;> omega
      cont := by
        intro i hi
        simp only
        rw [hmod, h.cont (i + 1) (by simp only [List.length_cons]; omega)]
        rfl
      part := h.part }

theorem mid_get {sz : Nat} {s : St} {f : Fifo} {e : Bool} (h : Mid sz s.q s.task f e) (ha : Harmless s (.irq .get)) :
    (s.q.getFull sz).2 = (f.step sz .get).2 ∧
    Mid sz (s.q.getFull sz).1 (irqStep sz s .get).task (f.step sz .get).1 (edgeStep sz f e .get) := by
  have base : ∀ {q f}, ErrSim sz q f e → (q.getFull sz).2 = (f.step sz .get).2 ∧
      ErrSim sz (q.getFull sz).1 (f.step sz .get).1 (edgeStep sz f e .get) :=
    fun h => errSim_step h .get (by simp [stores, ErrOp.accepted])
  have hes : edgeStep sz f e .get = e := rfl
  obtain ⟨q, t, log⟩ := s
  cases t with
  | idle => exact base h
  | get pc reg ent => exact absurd ha id
  | send pc reg ent free mark old =>
    rcases h with ⟨e0, hm, h⟩ | ⟨e0, hm, hp, h, hn⟩ | ⟨st, h⟩
    · obtain ⟨g1, g2⟩ := base h
      exact ⟨g1, .inl ⟨e0, hm, g2⟩⟩
    · have hc := h.count rfl
      simp only at hc
      have hpos : 0 < q.count := by
        rcases ha with h' | ⟨_, h'⟩ | h'
        · omega
        · exact h'
        · omega
      have hs : f.started = true := by
        cases hs : f.started with
        | true => rfl
        | false => rw [(hn hs).1] at hc; simp at hc; omega
      have hff : ({ f with started := true } : Fifo) = f := by cases f; simp_all
      rw [hff] at h
      obtain ⟨g1, g2⟩ := base h
      have hst : (f.step sz .get).1.started = true := by
        simp only [Fifo.step, hs, Bool.true_eq_false, if_false]
        split <;> simp [hs]
      have hff' : ({ (f.step sz .get).1 with started := true } : Fifo) = (f.step sz .get).1 := by
        generalize (f.step sz .get).1 = f' at *
        cases f'; simp_all
      exact ⟨g1, .inr (.inl ⟨e0, hm, hp, by rw [hff']; exact g2, fun h' => by rw [hst] at h'; exact absurd h' (by simp)⟩)⟩
    · have ho : 0 < old := by
        rcases ha with h' | ⟨h', _⟩ | ⟨_, h'⟩
        · have := h.lo; omega
        · have := h.lo; omega
        · exact h'
      obtain ⟨g1, st', g2⟩ := window_get h ho
      exact ⟨g1, .inr (.inr ⟨st', g2⟩)⟩

/-! ## Steps of the task -/

theorem mid_getStep {sz : Nat} {s : St} {pc reg : Nat} {ent : ErrEntry} (h : Inv sz s) (ht : s.task = .get pc reg ent) :
    Inv sz (getStep true sz s pc reg ent) := by
  unfold getStep
  split
  · rename_i hp
    subst hp
    split
    · rename_i hr
      refine h.keep rfl fun f e hm => ?_
      rw [ht] at hm
      rcases hm with ⟨_, h⟩ | ⟨e0, _⟩ | ⟨e1, _⟩ | ⟨e0, _⟩
      · exact .inr (.inl ⟨rfl, by rw [← h.ready]; exact hr, h⟩)
      · omega
      · omega
      · omega
    · rename_i hr
      refine h.push .get _ rfl fun f e hm _ => ?_
      rw [ht] at hm
      rcases hm with ⟨_, h⟩ | ⟨e0, _⟩ | ⟨e1, _⟩ | ⟨e0, _⟩
      · have hs : f.started = false := by rw [← h.ready]; simpa using hr
        have hf : f.step sz .get = (f, (0x5070#16, none)) := by simp [Fifo.step, hs]
        rw [hf]
        exact ⟨rfl, h⟩
      · omega
      · omega
      · omega
  · split
    · rename_i hp
      subst hp
      split
      · rename_i hc
        refine h.push .get _ rfl fun f e hm _ => ?_
        rw [ht] at hm
        rcases hm with ⟨e0, _⟩ | ⟨_, hs, h⟩ | ⟨e1, _⟩ | ⟨e0, _⟩
        · omega
        · have hl := h.count hs
          have h0 : f.items = [] := List.eq_nil_of_length_eq_zero (by omega)
          have hf : f.step sz .get = (f, (0x5071#16, none)) := by simp [Fifo.step, hs, h0]
          rw [hf]
          exact ⟨rfl, h⟩
        · omega
        · omega
      · rename_i hc
        refine h.keep rfl fun f e hm => ?_
        rw [ht] at hm
        rcases hm with ⟨e0, _⟩ | ⟨_, hs, h⟩ | ⟨e1, _⟩ | ⟨e0, _⟩
        · omega
        · have hl := h.count hs
          cases hi : f.items with
          | nil => rw [hi] at hl; exact absurd hl hc
          | cons hd tl => exact .inr (.inr (.inl ⟨by omega, by omega, hs, h, hd, tl, hi, .zero _ _⟩))
        · omega
        · omega
    · split
      · rename_i n0 n1 h7
        split
        · refine h.keep rfl fun f e hm => ?_
          rw [ht] at hm
          rcases hm with ⟨e0, _⟩ | ⟨e0, _⟩ | ⟨e1, e2, hs, h, hd, tl, hi, ha⟩ | ⟨e0, _⟩
          · omega
          · omega
          · have hb : s.q.buf s.q.outIdx = hd := by
              have := h.cont hs 0 (by rw [hi]; simp)
              have hsz : 0 < sz := by have := h.cap; rw [hi] at this; simp at this; omega
              have holt : s.q.outIdx < sz := by rw [h.out hs]; exact Nat.mod_lt _ hsz
              simpa [Nat.mod_eq_of_lt holt, hi] using this
            refine .inr (.inr (.inl ⟨by omega, by omega, hs, h, hd, tl, hi, ?_⟩))
            rw [hb, show pc + 1 - 2 = (pc - 2) + 1 by omega]
            exact ha.set (by omega)
          · omega
        · rename_i ho
          refine h.keep rfl fun f e hm => ?_
          rw [ht] at hm
          rcases hm with ⟨e0, _⟩ | ⟨e0, _⟩ | ⟨e1, e2, hs, h, hd, tl, hi, ha⟩ | ⟨e0, _⟩
          · omega
          · omega
          · have hsz : 0 < sz := by have := h.cap; rw [hi] at this; simp at this; omega
            exact absurd (by rw [h.out hs]; exact Nat.mod_lt _ hsz) ho
          · omega
      · split
        · rename_i h7
          subst h7
          refine h.keep rfl fun f e hm => ?_
          rw [ht] at hm
          rcases hm with ⟨e0, _⟩ | ⟨e0, _⟩ | ⟨e1, e2, hs, h, hd, tl, hi, ha⟩ | ⟨e0, _⟩
          · omega
          · omega
          · refine .inr (.inr (.inr ⟨rfl, hs, ?_, ?_, tl, by rw [hi, ha.eq]⟩))
            · have := h.out hs
              simp only
              rw [← this]
              exact h
            · simp only
              rw [h.out hs, Nat.mod_add_mod]
          · omega
        · rw [if_neg (by simp)]
          refine h.push .get _ rfl fun f e hm _ => ?_
          rw [ht] at hm
          rcases hm with ⟨e0, _⟩ | ⟨e0, _⟩ | ⟨e1, e2, _⟩ | ⟨e0, hs, h, ho, tl, hi⟩
          · omega
          · omega
          · omega
          · obtain ⟨g1, g2⟩ := errSim_step h .get (by simp [stores, ErrOp.accepted])
            have hsz : 0 < sz := by have := h.cap; rw [hi] at this; simp at this; omega
            have hc := h.count hs
            have hlt := Nat.mod_lt f.popped hsz
            have hb : s.q.buf (f.popped % sz) = ent := by
              have := h.cont hs 0 (by rw [hi]; simp)
              simpa [hi] using this
            have hg : ErrQ.step sz { s.q with outIdx := f.popped % sz } .get =
                ({ s.q with outIdx := s.q.outIdx, count := s.q.count - 1 }, E.ok, some ent) := by
              simp only [ErrQ.step]
              unfold ErrQ.getFull
              have hr := h.ready
              rw [hs] at hr
              simp only at hr hc
              rw [if_neg (by simp [hr]), if_neg (by simp only; rw [hc, hi]; simp), if_pos hlt]
              simp only [hb, Nat.mod_add_mod, ← ho]
            rw [hg] at g1 g2
            refine ⟨g1, ?_⟩
            simp only [e0, if_true]
            exact g2

theorem mid_sendStep {sz : Nat} {s : St} {pc reg : Nat} {ent : ErrEntry} {free : Int} {mark : Bool} {old : Nat}
    (h : Inv sz s) (ht : s.task = .send pc reg ent free mark old) :
    Inv sz (sendStep true sz s pc reg ent free mark old) := by
  unfold sendStep
  have hent : entryOf ent.msgCode ent.addInfo ent.prio 0 ent.group ent.moduleNr = ent := by simp [entryOf]
  split
  · rename_i hp
    subst hp
    dsimp only
    split
    · rename_i hf
      refine h.push (reportOf ent) _ rfl fun f e hm _ => ?_
      rw [ht] at hm
      rcases hm with ⟨_, hm, h⟩ | ⟨e0, _⟩ | ⟨st, h⟩
      · have hs : f.step sz (reportOf ent) = ({ f with started := true }, (0x0000#16, none)) := by
          simp [Fifo.step, reportOf, hf]
        have he : edgeStep sz f e (reportOf ent) = e := by
          simp [edgeStep, stores, fills, ErrOp.accepted, ErrOp.takesLast, reportOf, hf]
        rw [hs, he]
        exact ⟨rfl, errSim_init h⟩
      · omega
      · have := h.lo; omega
    · rename_i hf
      refine h.keep rfl fun f e hm => ?_
      rw [ht] at hm
      rcases hm with ⟨_, hm, h⟩ | ⟨e0, _⟩ | ⟨st, h⟩
      · exact .inr (.inl ⟨rfl, hm, hf, errSim_init h, h.fresh⟩)
      · omega
      · have := h.lo; omega
  · split
    · rename_i hp
      subst hp
      dsimp only
      split
      · rename_i hneg
        refine h.push (reportOf ent) _ rfl fun f e hm _ => ?_
        rw [ht] at hm
        rcases hm with ⟨e0, _⟩ | ⟨_, hm, hp, h, _⟩ | ⟨st, h⟩
        · omega
        · have hc := h.count rfl
          simp only at hc
          have hs : f.step sz (reportOf ent) = ({ f with started := true }, (0x506F#16, none)) := by
            simp only [Fifo.step, reportOf]
            rw [if_neg hp, if_pos (by omega)]
          have he : edgeStep sz f e (reportOf ent) = e := by
            have e1 : ¬ f.items.length + 2 = sz := by omega
            have e2 : ¬ f.items.length + 2 ≤ sz := by omega
            simp [edgeStep, stores, fills, ErrOp.accepted, ErrOp.takesLast, reportOf, e1, e2]
          rw [hs, he]
          exact ⟨rfl, h⟩
        · have := h.lo; omega
      · rename_i hneg
        refine h.push (reportOf ent) _ rfl fun f e hm hok => ?_
        rw [ht] at hm
        rcases hm with ⟨e0, _⟩ | ⟨_, hm, hp, h, _⟩ | ⟨st, h⟩
        · omega
        · subst hm
          have hc := h.count rfl
          simp only at hc
          have hst : stores sz f (reportOf ent) = true := by
            simp only [stores, ErrOp.accepted, reportOf, decide_eq_true_eq]
            exact ⟨hp, by omega⟩
          have hedge : e = false := by
            cases e with
            | false => rfl
            | true => exact absurd ⟨rfl, hst⟩ hok
          subst hedge
          have hin := (h.inn rfl).1 rfl
          have hout := h.out rfl
          have hcont := h.cont rfl
          have hrd := h.ready
          simp only at hin hout hcont hrd
          by_cases hz : (sz : Int) - ((s.q.count : Int) + 2) = 0
          · have hl : sz = f.items.length + 2 := by omega
            have hs : f.step sz (reportOf ent) =
                ({ f with items := f.items ++ [ent, fullMarker ent.moduleNr], started := true }, (0x506F#16, none)) := by
              simp only [Fifo.step, reportOf]
              rw [if_neg hp, if_neg (by omega), if_pos hl, hent]
            have he : edgeStep sz f false (reportOf ent) = (f.popped % sz == 0) := by
              have : fills sz f (reportOf ent) = true := by
                simp only [fills, ErrOp.takesLast, reportOf, decide_eq_true_eq]; exact ⟨hp, hl.symm⟩
              simp [edgeStep, this]
            rw [hs, he]
            refine ⟨by rw [if_pos hz], .inr (.inr ⟨f.items, ?_⟩)⟩
            exact {
              lo := by omega, hi := by omega, n3 := by omega, free0 := by omega
              old := by simp [hc]
              mfree := by simp
              noub := h.noub, ready := hrd, started := rfl
              items := by simp [hz]
              cap := by simp; omega
              out := hout
              count := by simp [hc]
              inn := by rw [hin, hc]
              edge0 := by
                intro _
                simp only [Bool.false_eq_true, if_false, beq_iff_eq]
                rw [Nat.add_assoc, ← hl, Nat.add_mod_right, hout, Nat.mod_mod]
              edge1 := by intro hn; exact absurd hz hn
              cont := hcont
              part := .zero _ _ }
          · have hl : sz ≠ f.items.length + 2 := by omega
            have hs : f.step sz (reportOf ent) =
                ({ f with items := f.items ++ [ent], started := true }, (0x0000#16, none)) := by
              simp only [Fifo.step, reportOf]
              rw [if_neg hp, if_neg (by omega), if_neg hl, hent]
            have he : edgeStep sz f false (reportOf ent) = false := by
              have : fills sz f (reportOf ent) = false := by
                simp only [fills, ErrOp.takesLast, reportOf, decide_eq_false_iff_not]; omega
              simp [edgeStep, this]
            rw [hs, he]
            refine ⟨by rw [if_neg hz], .inr (.inr ⟨f.items, ?_⟩)⟩
            exact {
              lo := by omega, hi := by omega, n3 := by omega, free0 := by omega
              old := by simp [hc]
              mfree := by simp
              noub := h.noub, ready := hrd, started := rfl
              items := by simp [hz]
              cap := by simp; omega
              out := hout
              count := by simp [hc]
              inn := by rw [hin, hc]
              edge0 := fun h' => absurd h' hz
              edge1 := fun _ => rfl
              cont := hcont
              part := .zero _ _ }
        · have := h.lo; omega
    · rename_i n0 n1
      -- inside the window
      have key : ∀ {f e} , Mid sz s.q s.task f e → ∃ st, Window sz s.q pc ent free mark old f e st := by
        intro f e hm
        rw [ht] at hm
        rcases hm with ⟨e0, _⟩ | ⟨e0, _⟩ | h
        · omega
        · omega
        · exact h
      split
      · rename_i hp
        subst hp
        split
        · rw [if_pos rfl]
          refine h.keep rfl fun f e hm => ?_
          obtain ⟨st, h⟩ := key hm
          refine .inr (.inr ⟨st, { h with lo := by omega, hi := by omega, n3 := by omega, count := ?_, part := .zero _ _ }⟩)
          have := h.count
          simp at this ⊢
          omega
        · rename_i hc
          refine h.keep rfl fun f e hm => ?_
          obtain ⟨st, h⟩ := key hm
          have h1 := h.count
          have h2 := h.cap
          rw [h.items] at h2
          simp at h1
          have : st.length + 1 ≤ sz := by
            refine Nat.le_trans ?_ h2
            rw [List.length_append]
            split
            · simp
            · split <;> simp
          omega
      · split
        · refine h.keep rfl fun f e hm => ?_
          obtain ⟨st, h⟩ := key hm
          have := h.n3; omega
        · rename_i n2 n3
          have lt : ∀ {f e st}, Window sz s.q pc ent free mark old f e st → st.length + 1 ≤ sz ∧ 0 < sz := by
            intro f e st h
            have h2 := h.cap
            rw [h.items] at h2
            have : st.length + 1 ≤ sz := by
              refine Nat.le_trans ?_ h2
              rw [List.length_append]
              split
              · simp
              · split <;> simp
            omega
          split
          · rename_i h9
            split
            · refine h.keep rfl fun f e hm => ?_
              obtain ⟨st, h⟩ := key hm
              obtain ⟨l1, l2⟩ := lt h
              refine .inr (.inr ⟨st, { h with lo := by omega, hi := by omega, n3 := by omega, count := ?_, cont := ?_, part := ?_ }⟩)
              · have := h.count
                simp only
                rw [this]
                have := h.lo
                rw [if_pos (by omega), if_pos (by omega)]
              · intro i hi
                simp only
                rw [upd_other]
                · exact h.cont i hi
                · rw [h.inn]
                  intro hh
                  have := mod_inj_of_lt (by omega) (by omega) hh
                  omega
              · simp only
                rw [upd_same, show pc + 1 - 4 = pc - 4 + 1 by have := h.lo; omega]
                exact h.part.set (by omega)
            · rename_i hi
              refine h.keep rfl fun f e hm => ?_
              obtain ⟨st, h⟩ := key hm
              obtain ⟨l1, l2⟩ := lt h
              exact absurd (by rw [h.inn]; exact Nat.mod_lt _ l2) hi
          · rename_i n9
            -- the write index
            have fin : ∀ {f e st}, Window sz s.q pc ent free mark old f e st → pc = 9 ∧ s.q.buf s.q.inIdx = ent := by
              intro f e st h
              have h9 : pc = 9 := by have := h.hi; omega
              refine ⟨h9, ?_⟩
              have := h.part
              rw [h9] at this
              exact this.eq
            have stored : ∀ {f e st}, Window sz s.q pc ent free mark old f e st →
                ∀ i (h : i < (st ++ [ent]).length), s.q.buf ((s.q.outIdx + i) % sz) = (st ++ [ent])[i] := by
              intro f e st h i hi
              simp only [List.length_append, List.length_singleton] at hi
              rcases Nat.lt_or_ge i st.length with h' | h'
              · rw [h.cont i h', List.getElem_append_left h']
              · have : i = st.length := by omega
                subst this
                rw [← h.inn, (fin h).2]
                simp
            split
            · rename_i hmk
              subst hmk
              refine h.keep rfl fun f e hm => ?_
              obtain ⟨st, h⟩ := key hm
              obtain ⟨l1, l2⟩ := lt h
              obtain ⟨f1, f2⟩ := fin h
              have hit := h.items
              simp only [if_true] at hit
              have hc := h.count
              rw [f1] at hc
              simp only [show 2 < 9 by omega, if_true] at hc
              have hE := h.edge0 (h.mfree rfl)
              simp only [if_true] at hE
              have hs := succ_mod (s.q.outIdx + st.length) sz l2
              exact {
                noub := h.noub, ready := by rw [h.started]; exact h.ready
                fresh := fun h' => by rw [h.started] at h'; exact absurd h' (by simp)
                count := fun _ => by rw [hit]; simp [hc]
                cap := h.cap
                out := fun _ => h.out
                inn := fun _ => by
                  simp only
                  rw [hc, h.inn, ← Nat.add_assoc]
                  refine ⟨fun h' => hs.2 ?_, fun h' => ⟨hs.1 (hE.mp h'), hE.mp h'⟩⟩
                  intro h0
                  rw [hE.mpr h0] at h'
                  exact absurd h' (by simp)
                cont := fun _ i hi => by
                  simp only
                  have := stored h i (by rw [hit] at hi; exact hi)
                  rw [this]
                  simp only [hit] }
            · rename_i hmk
              have hmk : mark = false := by simpa using hmk
              subst hmk
              by_cases hz : free = 0
              · subst hz
                rw [if_pos rfl]
                refine h.keep rfl fun f e hm => ?_
                obtain ⟨st, h⟩ := key hm
                obtain ⟨l1, l2⟩ := lt h
                obtain ⟨f1, f2⟩ := fin h
                have hit := h.items
                simp only [Bool.false_eq_true, if_false, if_true] at hit
                have hc := h.count
                rw [f1] at hc
                simp only [show 2 < 9 by omega, if_true] at hc
                have hE := h.edge0 rfl
                simp only [Bool.false_eq_true, if_false] at hE
                refine .inr (.inr ⟨st ++ [ent], ?_⟩)
                dsimp only
                rw [canMsgCode_full, group_full]
                exact {
                  lo := by omega, hi := by omega, n3 := by omega, free0 := by omega
                  old := by have := h.old; simp at this ⊢; omega
                  mfree := fun _ => rfl
                  noub := h.noub, ready := h.ready, started := h.started
                  items := by simp [hit, fullMarker]
                  cap := h.cap
                  out := h.out
                  count := by simp [hc]
                  inn := by
                    simp only [List.length_append, List.length_singleton]
                    rw [h.inn, Nat.mod_add_mod, Nat.add_assoc]
                  edge0 := by
                    intro _
                    simp only [List.length_append, List.length_singleton, if_true]
                    rw [hE]
                    constructor <;> intro h' <;> rw [← h'] <;> congr 1 <;> omega
                  edge1 := fun h' => absurd rfl h'
                  cont := stored h
                  part := .zero _ _ }
              · rw [if_neg hz]
                refine h.keep rfl fun f e hm => ?_
                obtain ⟨st, h⟩ := key hm
                obtain ⟨l1, l2⟩ := lt h
                obtain ⟨f1, f2⟩ := fin h
                have hit := h.items
                simp only [Bool.false_eq_true, if_false, if_neg hz] at hit
                have hc := h.count
                rw [f1] at hc
                simp only [show 2 < 9 by omega, if_true] at hc
                have he := h.edge1 hz
                subst he
                exact {
                  noub := h.noub, ready := by rw [h.started]; exact h.ready
                  fresh := fun h' => by rw [h.started] at h'; exact absurd h' (by simp)
                  count := fun _ => by rw [hit]; simp [hc]
                  cap := h.cap
                  out := fun _ => h.out
                  inn := fun _ => by
                    simp only
                    refine ⟨fun _ => ?_, fun h' => absurd h' (by simp)⟩
                    rw [h.inn, hc, Nat.mod_add_mod, Nat.add_assoc]
                  cont := fun _ i hi => by
                    simp only
                    have := stored h i (by rw [hit] at hi; exact hi)
                    rw [this]
                    simp only [hit] }

theorem Inv.step {sz : Nat} {s : St} (h : Inv sz s) (a : Act) (ha : Harmless s a) : Inv sz (step true sz s a) := by
  cases a with
  | irq op =>
    cases op with
    | report mc ai p g sg nr =>
      refine h.push _ _ rfl fun f e hm hok => ?_
      exact mid_report mc ai p g sg nr ha hm hok
    | get =>
      refine h.push _ _ rfl fun f e hm _ => ?_
      exact mid_get hm ha
  | start op =>
    obtain ⟨q, t, log⟩ := s
    cases t with
    | idle =>
      cases op with
      | get => exact h.keep rfl fun f e hm => .inl ⟨rfl, hm⟩
      | report mc ai p g sg nr => exact h.keep rfl fun f e hm => .inl ⟨rfl, rfl, hm⟩
    | get _ _ _ => cases op <;> exact h
    | send _ _ _ _ _ _ => cases op <;> exact h
  | cpu =>
    unfold ErrIrq.step
    simp only
    split
    · exact h
    · rename_i pc reg e ht
      exact mid_getStep h ht
    · rename_i pc reg e free mark old ht
      exact mid_sendStep h ht

theorem Inv.boot (sz : Nat) : Inv sz ErrIrq.boot := .inr ⟨rfl, errSim_boot sz⟩

end ErrIrq
end LiCan
