import Verif.Lemmas.StackBase
import Verif.Lemmas.ShortName
import Verif.Lemmas.XBuf
import Verif.Props.Sync
/-! # Properties of downloads and uploads (C41 - C45, C47) -/
namespace LiCan
open Spec
namespace Stack
open Slave (at8 byteOf)

/-! ## Dispatch -/

theorem _root_.LiCan.Spec.Addressed.find {env : AEnv} {s : Stack} {nr tp : Nat} (h : Addressed env s nr tp) :
    s.slv.node.findNr env.toEnv nr = some tp := h.1

theorem _root_.LiCan.Spec.Addressed.quiet {env : AEnv} {s s' : Stack} {nr tp : Nat} (h : Addressed env s nr tp) (l : Light s.slv.node s'.slv.node) :
    Addressed env s' nr tp := by
  unfold Addressed at *; rw [l.rows, l.silent]; exact h

theorem asyncRx_eq {env : AEnv} {s : Stack} {nr tp : Nat} (h : Addressed env s nr tp) (src : List Byte) :
    s.asyncRx env nr src = s.command env nr tp src := by
  unfold asyncRx
  rw [h.find]
  exact if_neg h.2

/-! ## C41 -/

/-- what a handler call leaves in the log: the call itself on top of the old log, below whatever the
handler does -/
theorem callHnd_log (env : AEnv) (s : Stack) (h : Hnd) (f : Nat) (c : Component) (hf : s.x.hnd h = some f) :
    ∃ l, (s.callHnd env h c).1.slv.node.log = l ++ .app (.hnd h f c) :: s.slv.node.log := by
  unfold callHnd callApp
  rw [hf]
  obtain ⟨l, k, e, _⟩ := (Quiet.acts env (env.reply s.callN (.hnd h f c)).acts
    (logCall { s with callN := s.callN + 1 } (.hnd h f c))).node
  exact ⟨l, by simp only; rw [e]; rfl⟩

theorem Quiet.logExt {s s' : Stack} (h : Quiet s s') : ∃ l, s'.slv.node.log = l ++ s.slv.node.log := by
  obtain ⟨l, k, e, _⟩ := h.node
  exact ⟨l, by rw [e]⟩

theorem versionPre_log (env : AEnv) (s : Stack) (nr f : Nat) (hf : s.x.hnd .dlVersion = some f) :
    ∃ l, (s.versionPre env nr).1.slv.node.log = l ++ .app (.hnd .dlVersion f { s.x.vcomp with nr := nr }) :: s.slv.node.log := by
  unfold versionPre
  simp only [hf, reduceCtorEq, if_false]
  have h1 := callHnd_log env (s.setX fun x => { x with vcomp := { x.vcomp with nr := nr } }) .dlVersion f
    { s.x.vcomp with nr := nr } hf
  have hx : (s.setX fun x => { x with vcomp := { x.vcomp with nr := nr } }).x.vcomp = { s.x.vcomp with nr := nr } := rfl
  rw [hx]
  generalize callHnd env (s.setX fun x => { x with vcomp := { x.vcomp with nr := nr } }) .dlVersion { s.x.vcomp with nr := nr } = r at h1 ⊢
  obtain ⟨l, e⟩ := h1
  have key : ∀ s', Quiet r.1 s' → ∃ l, s'.slv.node.log = l ++ .app (.hnd .dlVersion f { s.x.vcomp with nr := nr }) :: s.slv.node.log := by
    intro s' hq
    obtain ⟨l', e'⟩ := hq.logExt
    exact ⟨l' ++ l, by rw [e', e]; simp [setX]⟩
  have hq : Quiet r.1 (r.1.setX fun x => { x with vcomp := { x.vcomp with name := noName } }) := .setX _ _ fun _ => rfl
  split
  · split
    · exact key _ (hq.tx env nr _)
    · exact key _ hq
  · exact key _ (hq.term env nr _)

theorem infoPre_log (env : AEnv) (s : Stack) (nr f : Nat) (hf : s.x.hnd .ulInfo = some f) :
    ∃ l, (s.infoPre env nr).1.slv.node.log = l ++ .app (.hnd .ulInfo f { s.x.comp with nr := nr }) :: s.slv.node.log := by
  unfold infoPre
  simp only [hf, reduceCtorEq, if_false]
  have h1 := callHnd_log env (s.setX fun x => { x with comp := { x.comp with nr := nr } }) .ulInfo f
    { s.x.comp with nr := nr } hf
  have hx : (s.setX fun x => { x with comp := { x.comp with nr := nr } }).x.comp = { s.x.comp with nr := nr } := rfl
  rw [hx]
  generalize callHnd env (s.setX fun x => { x with comp := { x.comp with nr := nr } }) .ulInfo { s.x.comp with nr := nr } = r at h1 ⊢
  obtain ⟨l, e⟩ := h1
  have key : ∀ s', Quiet r.1 s' → ∃ l, s'.slv.node.log = l ++ .app (.hnd .ulInfo f { s.x.comp with nr := nr }) :: s.slv.node.log := by
    intro s' hq
    obtain ⟨l', e'⟩ := hq.logExt
    exact ⟨l' ++ l, by rw [e', e]; simp [setX]⟩
  have hq : Quiet r.1 (r.1.setX fun x => { x with comp := { x.comp with name := noName } }) := .setX _ _ fun _ => rfl
  split
  · split
    · exact key _ (hq.tx env nr _)
    · exact key _ hq
  · exact key _ (hq.term env nr _)

/-- C41 (version request).  The version handler is called exactly with the name that was packed, the
index of the request and the addressed module number. -/
theorem C41_version_name (env : AEnv) (s : Stack) (nr tp f : Nat) (ha : Addressed env s nr tp)
    (hf : s.x.hnd .dlVersion = some f) (idx : Byte) (cs : List Nat) (h8 : cs.length = 8) (h : ∀ c ∈ cs, c < 64) :
    ∃ l c, logOf (s.asyncRx env nr (0x10 :: idx :: packName cs)).1 = l ++ .app (.hnd .dlVersion f c) :: logOf s ∧
      c.name = nameText cs ∧ c.index = idx ∧ c.nr = nr := by
  rw [asyncRx_eq ha]
  obtain ⟨l, e⟩ := versionPre_log env (s.setX fun x => { x with vcomp := { x.vcomp with
    index := b8 (0x10 :: idx :: packName cs) 1, name := shortName (0x10 :: idx :: packName cs) } }) nr f hf
  exact ⟨l, _, e, shortName_pack _ _ _ h8 h, rfl, rfl⟩

/-- C41 (info request).  Likewise for the upload info handler. -/
theorem C41_info_name (env : AEnv) (s : Stack) (nr tp f : Nat) (ha : Addressed env s nr tp)
    (hf : s.x.hnd .ulInfo = some f) (idx : Byte) (cs : List Nat) (h8 : cs.length = 8) (h : ∀ c ∈ cs, c < 64) :
    ∃ l c, logOf (s.asyncRx env nr (0x50 :: idx :: packName cs)).1 = l ++ .app (.hnd .ulInfo f c) :: logOf s ∧
      c.name = nameText cs ∧ c.index = idx ∧ c.nr = nr := by
  rw [asyncRx_eq ha]
  obtain ⟨l, e⟩ := infoPre_log env (s.setX fun x => { x with comp := { x.comp with
    index := b8 (0x50 :: idx :: packName cs) 1, name := shortName (0x50 :: idx :: packName cs) } }) nr f hf
  exact ⟨l, _, e, shortName_pack _ _ _ h8 h, rfl, rfl⟩

/-! ## C42 -/

/-- a data message -/
def dataMsg (seg : List Byte) : List Byte := 0x15 :: seg

/-- the message that ends a block of `n` bytes in `k` data messages -/
def blockEndMsg (n k : Nat) : List Byte := 0x16 :: (bytes 2 n ++ bytes 2 k ++ [0, 0, 0])

/-- what `m` reads from a buffer with content `q` return: the bytes, then nothing -/
def gots (q : List Byte) (m : Nat) : List Ev := (List.range m).map fun i => .app (.got q[i]?)

theorem slice_seg (seg : List Byte) (h : seg.length = 7) (x : Byte) : slice (x :: seg) 1 7 = seg := by
  match seg, h with
  | [a, b, c, d, e, f, g], _ => rfl

theorem dlData_ok (env : AEnv) (s : Stack) (nr : Nat) (seg c : List Byte) (h7 : seg.length = 7)
    (hb : XBuf.Holds env.bufSize s.x.buf c) (hc : c.length + 7 ≤ env.bufSize) :
    ∃ b', XBuf.Holds env.bufSize b' (c ++ seg) ∧ s.dlData env nr (dataMsg seg) =
      (s.setX fun x => { x with buf := b', objs := u16 (x.objs + 1), bytes := u16 (x.bytes + 7) }, E.ok) := by
  have h := XBuf.holds_addLoop seg hb (by omega)
  refine ⟨_, h.2, ?_⟩
  unfold dlData dataMsg
  rw [slice_seg seg h7]
  simp only [h.1, if_true]
  rfl

/-- the data messages of a block: nothing is sent or called, the buffer grows by exactly their bytes -/
theorem recv_data (env : AEnv) (nr tp : Nat) (segs : List (List Byte)) : ∀ (s : Stack) (c : List Byte),
    Addressed env s nr tp → (∀ g ∈ segs, g.length = 7) → XBuf.Holds env.bufSize s.x.buf c →
    c.length + segs.flatten.length ≤ env.bufSize →
    s.x.objs + segs.length < 65536 → s.x.bytes + segs.flatten.length < 65536 →
    ∃ b', XBuf.Holds env.bufSize b' (c ++ segs.flatten) ∧ recv env nr s (segs.map dataMsg) =
      s.setX fun x => { x with buf := b', objs := x.objs + segs.length, bytes := x.bytes + segs.flatten.length } := by
  induction segs with
  | nil =>
    intro s c _ _ hb _ _ _
    exact ⟨s.x.buf, by simpa using hb, rfl⟩
  | cons g segs ih =>
    intro s c ha h7 hb hc ho hy
    have hg := h7 g (by simp)
    simp only [List.flatten_cons, List.length_append, hg, List.length_cons] at hc ho hy
    obtain ⟨b1, hb1, e1⟩ := dlData_ok env s nr g c hg hb (by omega)
    have ex := congrArg Prod.fst e1
    rw [show s.dlData env nr (dataMsg g) = s.asyncRx env nr (dataMsg g) from (asyncRx_eq ha (dataMsg g)).symm] at ex
    have hu : u16 (s.x.objs + 1) = s.x.objs + 1 := Nat.mod_eq_of_lt (by omega)
    have hv : u16 (s.x.bytes + 7) = s.x.bytes + 7 := Nat.mod_eq_of_lt (by omega)
    have ha1 : Addressed env (s.setX fun x => { x with buf := b1, objs := u16 (x.objs + 1), bytes := u16 (x.bytes + 7) }) nr tp :=
      ha
    obtain ⟨b2, hb2, e2⟩ := ih (s.setX fun x => { x with buf := b1, objs := u16 (x.objs + 1), bytes := u16 (x.bytes + 7) })
      (c ++ g) ha1 (fun g' h' => h7 g' (by simp [h'])) hb1
      (by simp only [List.length_append, hg]; omega)
      (by show u16 (s.x.objs + 1) + _ < _; rw [hu]; omega) (by show u16 (s.x.bytes + 7) + _ < _; rw [hv]; omega)
    refine ⟨b2, by simpa using hb2, ?_⟩
    simp only [List.map_cons, recv]
    rw [ex]
    dsimp only
    rw [e2]
    simp only [setX, hu, hv, List.flatten_cons, List.length_append, hg, List.length_cons]
    congr 2 <;> omega

theorem gots_succ (q : List Byte) (m : Nat) : gots q (m + 1) = .app (.got q[0]?) :: gots q.tail m := by
  unfold gots
  rw [List.range_succ_eq_map, List.map_cons, List.map_map]
  congr 1
  apply List.map_congr_left
  intro i _
  simp

/-- `m` reads by a handler -/
theorem acts_get (env : AEnv) (m : Nat) : ∀ (s : Stack) (q : List Byte), XBuf.Holds env.bufSize s.x.buf q →
    ∃ b', XBuf.Holds env.bufSize b' (q.drop m) ∧ (List.replicate m Act.get).foldl (act env) s =
      { s with x := { s.x with buf := b' }
               slv := { s.slv with node := { s.slv.node with log := (gots q m).reverse ++ s.slv.node.log } } } := by
  induction m with
  | zero => intro s q h; exact ⟨s.x.buf, by simpa using h, rfl⟩
  | succ m ih =>
    intro s q h
    simp only [List.replicate_succ, List.foldl_cons]
    have h1 : (s.x.buf.getByte env.bufSize).2.2 = q[0]? ∧ XBuf.Holds env.bufSize (s.x.buf.getByte env.bufSize).1 q.tail := by
      cases q with
      | nil =>
        have := h.nr
        simp only [List.length_nil] at this
        simp only [XBuf.getByte, this, Nat.le_refl, if_true]
        exact ⟨rfl, h⟩
      | cons x q =>
        obtain ⟨a, b⟩ := XBuf.holds_get h
        exact ⟨by rw [a]; rfl, b⟩
    obtain ⟨b', hb', e⟩ := ih (s.act env .get) q.tail h1.2
    refine ⟨b', by simpa using hb', ?_⟩
    rw [e, gots_succ]
    simp only [act, setX, logCall, setNode, h1.1, List.reverse_cons, List.append_assoc, List.singleton_append]

theorem byteOf_bytes {n : Nat} (h : n < 65536) (a : Byte) (l : List Byte) :
    at8 (a :: (bytes 2 n ++ l)) 1 * 256 + at8 (a :: (bytes 2 n ++ l)) 2 = n := by
  simp only [bytes, digits, List.map_cons, List.map_nil, List.cons_append, List.nil_append, at8, List.getD_cons_succ,
    List.getD_cons_zero, Nat.pow_one, Nat.pow_zero]
  rw [ofNat_small (Nat.mod_lt _ (by decide)), ofNat_small (Nat.mod_lt _ (by decide))]
  omega

theorem byteOf_bytes' {n k : Nat} (h : k < 65536) (a : Byte) (l : List Byte) :
    at8 (a :: (bytes 2 n ++ bytes 2 k ++ l)) 3 * 256 + at8 (a :: (bytes 2 n ++ bytes 2 k ++ l)) 4 = k := by
  simp only [bytes, digits, List.map_cons, List.map_nil, List.cons_append, List.nil_append, at8, List.getD_cons_succ,
    List.getD_cons_zero, Nat.pow_one, Nat.pow_zero]
  rw [ofNat_small (Nat.mod_lt _ (by decide)), ofNat_small (Nat.mod_lt _ (by decide))]
  omega

theorem sub16_le {a b : Nat} (h : b ≤ a) (ha : a < 65536) : sub16 a b = a - b := by unfold sub16; omega

theorem take_block (c d : List Byte) (n : Nat) (h : n ≤ d.length) :
    (c ++ d).take ((c ++ d).length - (d.length - n)) = c ++ d.take n := by
  have : (c ++ d).length - (d.length - n) = c.length + n := by simp only [List.length_append]; omega
  rw [this, List.take_length_add_append]

/-- the state in which the block handler starts to act -/
def blockCall (s : Stack) (b : XBuf) (f : Nat) : Stack :=
  logCall { (s.setX fun x => { x with buf := b }) with callN := s.callN + 1 } (.hnd .dlBlock f s.x.comp)

theorem dlBlockEnd_eq (env : AEnv) (s : Stack) (nr f n : Nat) (c d : List Byte) (hf : s.x.hnd .dlBlock = some f)
    (hk : s.x.objs < 65536) (hL : s.x.bytes = d.length) (hL2 : d.length < 65536) (hn : n ≤ d.length)
    (hh : XBuf.Holds env.bufSize s.x.buf (c ++ d)) :
    ∃ b1, XBuf.Holds env.bufSize b1 (c ++ d.take n) ∧ s.dlBlockEnd env nr (blockEndMsg n s.x.objs) =
      (let r := env.reply s.callN (.hnd .dlBlock f s.x.comp)
       let s2 := r.acts.foldl (act env) (blockCall s b1 f)
       if r.err = E.ok then ((s2.blockAckn env nr).setX fun x => { x with bytes := 0, objs := 0 }, E.ok)
       else (s2.termination env nr r.err, r.err)) := by
  have h1 : at8 (blockEndMsg n s.x.objs) 1 * 256 + at8 (blockEndMsg n s.x.objs) 2 = n := by
    unfold blockEndMsg
    rw [List.append_assoc]
    exact byteOf_bytes (by omega) _ _
  have h2 : at8 (blockEndMsg n s.x.objs) 3 * 256 + at8 (blockEndMsg n s.x.objs) 4 = s.x.objs := byteOf_bytes' hk _ _
  unfold dlBlockEnd
  generalize blockEndMsg n s.x.objs = msg at h1 h2
  rw [h2, h1, hL]
  dsimp only
  rw [sub16_le hn hL2, if_pos rfl]
  by_cases h0 : 0 < d.length - n
  · have hr := XBuf.holds_remove hh (d.length - n) (by simp only [List.length_append]; omega)
    rw [take_block c d n hn] at hr
    refine ⟨_, hr.2, ?_⟩
    rw [if_pos h0]
    unfold callHnd
    have e : (s.setX fun x => { x with buf := (x.buf.removeBytes env.bufSize (d.length - n)).1 }).x.hnd .dlBlock = some f := hf
    rw [e]
    rfl
  · have : d.take n = d := List.take_of_length_le (by omega)
    refine ⟨s.x.buf, by rw [this]; exact hh, ?_⟩
    rw [if_neg h0]
    unfold callHnd
    rw [hf]
    rfl

theorem recv_append (env : AEnv) (nr : Nat) (a : List (List Byte)) : ∀ (b : List (List Byte)) (s : Stack),
    recv env nr s (a ++ b) = recv env nr (recv env nr s a) b := by
  induction a with
  | nil => intro b s; rfl
  | cons x a ih => intro b s; exact ih b _

theorem flatten_le (segs : List (List Byte)) (h7 : ∀ g ∈ segs, g.length = 7) : segs.length ≤ segs.flatten.length := by
  induction segs with
  | nil => simp
  | cons g segs ih =>
    have := h7 g (by simp)
    have := ih (fun g' h' => h7 g' (by simp [h']))
    simp only [List.length_cons, List.flatten_cons, List.length_append]; omega

/-- a whole block up to the moment the handler runs -/
theorem recv_block (env : AEnv) (s : Stack) (nr tp f n : Nat) (c : List Byte) (segs : List (List Byte))
    (ha : Addressed env s nr tp) (hf : s.x.hnd .dlBlock = some f)
    (hB : env.bufSize < 65536) (h7 : ∀ g ∈ segs, g.length = 7) (hh : XBuf.Holds env.bufSize s.x.buf c)
    (ho : s.x.objs = 0) (hy : s.x.bytes = 0) (hc : c.length + segs.flatten.length ≤ env.bufSize)
    (hn : n ≤ segs.flatten.length) :
    ∃ b1 v, XBuf.Holds env.bufSize b1 (c ++ segs.flatten.take n) ∧
      v = (s.setX fun x => { x with buf := b1, objs := segs.length, bytes := segs.flatten.length }) ∧
      recv env nr s (segs.map dataMsg ++ [blockEndMsg n segs.length]) =
      (let r := env.reply s.callN (.hnd .dlBlock f s.x.comp)
       let s2 := r.acts.foldl (act env) (blockCall v b1 f)
       if r.err = E.ok then (s2.blockAckn env nr).setX fun x => { x with bytes := 0, objs := 0 }
       else s2.termination env nr r.err) := by
  have hk := flatten_le segs h7
  obtain ⟨b', hb', e⟩ := recv_data env nr tp segs s c ha h7 hh hc (by omega) (by omega)
  rw [recv_append, e]
  have ha' : Addressed env (s.setX fun x => { x with buf := b', objs := x.objs + segs.length, bytes := x.bytes + segs.flatten.length }) nr tp := ha
  have e1 : (s.setX fun x => { x with buf := b', objs := x.objs + segs.length, bytes := x.bytes + segs.flatten.length }).x.objs = segs.length := by
    show s.x.objs + _ = _; omega
  have e2 : (s.setX fun x => { x with buf := b', objs := x.objs + segs.length, bytes := x.bytes + segs.flatten.length }).x.bytes = segs.flatten.length := by
    show s.x.bytes + _ = _; omega
  obtain ⟨b1, hb1, e3⟩ := dlBlockEnd_eq env
    (s.setX fun x => { x with buf := b', objs := x.objs + segs.length, bytes := x.bytes + segs.flatten.length }) nr f n c
    segs.flatten hf (by omega) e2 (by omega) hn hb'
  rw [e1] at e3
  refine ⟨b1, _, hb1, rfl, ?_⟩
  simp only [recv]
  rw [asyncRx_eq ha']
  have := congrArg Prod.fst e3
  refine Eq.trans this ?_
  simp only [setX, ho, hy, Nat.zero_add, apply_ite Prod.fst, blockCall]

/-- C42, provable part (announced count at most the number of bytes received).  A block is received into
a buffer that still holds the bytes `c`; the handler reads `m` bytes and then does `rest`.  Then the
handler is called once, and its reads return exactly `c` followed by the first `n` bytes of the block. -/
theorem C42_block_partial (env : AEnv) (s : Stack) (nr tp f n m : Nat) (c : List Byte) (segs : List (List Byte))
    (rest : List Act) (ha : Addressed env s nr tp) (hf : s.x.hnd .dlBlock = some f)
    (hB : env.bufSize < 65536) (h7 : ∀ g ∈ segs, g.length = 7) (hh : XBuf.Holds env.bufSize s.x.buf c)
    (ho : s.x.objs = 0) (hy : s.x.bytes = 0) (hc : c.length + segs.flatten.length ≤ env.bufSize)
    (hn : n ≤ segs.flatten.length)
    (hr : (env.reply s.callN (.hnd .dlBlock f s.x.comp)).acts = List.replicate m .get ++ rest) :
    ∃ l, logOf (recv env nr s (segs.map dataMsg ++ [blockEndMsg n segs.length])) =
      l ++ (gots (c ++ segs.flatten.take n) m).reverse ++ .app (.hnd .dlBlock f s.x.comp) :: logOf s := by
  obtain ⟨b1, v, hb1, hv, e⟩ := recv_block env s nr tp f n c segs ha hf hB h7 hh ho hy hc hn
  rw [e]
  simp only [hr, List.foldl_append]
  obtain ⟨b2, hb2, e2⟩ := acts_get env m (blockCall v b1 f) _ hb1
  rw [e2]
  generalize hs3 : ({ blockCall v b1 f with x := { (blockCall v b1 f).x with buf := b2 }, slv := { (blockCall v b1 f).slv with
    node := { (blockCall v b1 f).slv.node with log := (gots (c ++ segs.flatten.take n) m).reverse ++ (blockCall v b1 f).slv.node.log } } } : Stack) = s3
  have hlog : s3.slv.node.log = (gots (c ++ segs.flatten.take n) m).reverse ++ .app (.hnd .dlBlock f s.x.comp) :: logOf s := by
    rw [← hs3, hv]; rfl
  have hq := Quiet.acts env rest s3
  have key : ∀ s', Quiet s3 s' → ∃ l, logOf s' = l ++ (gots (c ++ segs.flatten.take n) m).reverse ++ .app (.hnd .dlBlock f s.x.comp) :: logOf s := by
    intro s' h
    obtain ⟨l, el⟩ := h.logExt
    exact ⟨l, by show s'.slv.node.log = _; rw [el, hlog]; simp⟩
  split
  · refine key _ ?_
    refine Quiet.x (s := Stack.blockAckn env _ nr) (hq.tx env nr _) _ ?_
    exact fun _ => rfl
  · exact key _ (hq.term env nr _)

end Stack
end LiCan
