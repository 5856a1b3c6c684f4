import Verif.Props.Transfer
/-! # Properties of uploads (C44, C58) -/
namespace LiCan
open Spec
namespace Stack
open Slave (at8 byteOf)

/-! ## C44 -/

/-- the frames of an extension of the log, oldest first, whatever the driver said; `none`: something else -/
def framesIn (l : List Ev) : List (Option Frame) := l.reverse.map fun e => match e with
  | .frame f _ => some f
  | _ => none

/-- segment `i` of the data from byte `b` on, padded with zeros -/
def segOf (data : List Byte) (b i : Nat) : List Byte := (List.range 7).map fun k => data.getD (b + 7 * i + k) 0

theorem segOf_fill (data : List Byte) (b i : Nat) (h : b + 7 * i ≤ data.length) :
    ulFill data (b + 7 * i) = (segOf data b i, min data.length (b + 7 * i + 7)) := by
  unfold ulFill segOf
  rw [if_neg (by omega)]

theorem segs_flatten (data : List Byte) (b m : Nat) :
    ((List.range m).map (segOf data b)).flatten = (List.range (7 * m)).map fun j => data.getD (b + j) 0 := by
  induction m with
  | zero => rfl
  | succ m ih =>
    rw [List.range_succ, List.map_append, List.flatten_append, ih]
    have : 7 * (m + 1) = 7 * m + 7 := by omega
    rw [this, List.range_add, List.map_append]
    simp [segOf, Function.comp_def, Nat.add_assoc]

theorem segs_take (data : List Byte) (b m : Nat) (h : data.length ≤ b + 7 * m) :
    ((List.range m).map (segOf data b)).flatten.take (data.length - b) = data.drop b := by
  rw [segs_flatten]
  apply List.ext_getElem
  · simp; omega
  · intro i h1 h2
    have : b + i < data.length := by rw [List.length_drop] at h2; omega
    simp [this]

/-- the block end message for `n` bytes in `k` segments -/
def upEnd (n k : Nat) : List Byte := 0x16 :: (bytes 2 n ++ bytes 2 k ++ [0, 0, 0])

theorem byteOf2 {n : Nat} : [byteOf n 1, byteOf n 0] = bytes 2 n := by
  simp only [bytes, digits, List.map_cons, List.map_nil, byteOf]
  refine List.cons_eq_cons.2 ⟨?_, List.cons_eq_cons.2 ⟨?_, rfl⟩⟩ <;> apply u8_ext <;> simp

theorem ulLoop_sent (env : AEnv) (data : List Byte) (hl : data.length < 65536) (fuel : Nat) : ∀ (s : Stack) (old b k : Nat) (s' : Stack),
    1 ≤ s.x.comp.nr → s.x.comp.nr < 16000 → b + 7 * k ≤ data.length → (b + 7 * k < data.length ∨ k = 0) →
    s.x.objs = k → s.x.bytes = min data.length (b + 7 * k + 7) → ulLoop env data fuel s old (segOf data b k) = some s' →
    ∃ m l, k < m ∧ data.length ≤ b + 7 * m ∧ (b + 7 * m < data.length + 7 ∨ m = 1) ∧ logOf s' = l ++ logOf s ∧
      framesIn l = ((List.range' k (m - k)).map fun i => some (ctrlFrame s.x.comp.nr (0x15 :: segOf data b i))) ++
        [some (ctrlFrame s.x.comp.nr (upEnd data.length m))] ∧ s'.x.comp = s.x.comp ∧ s'.x.bytes = data.length := by
  induction fuel with
  | zero => intro s old b k s' _ _ _ _ _ _ h; cases h
  | succ fuel ih =>
    intro s old b k s' h1 h2 hk hk0 ho hb h
    rw [ulLoop_succ] at h
    split at h
    · have hlog := ctrlTx_log env { s with clockN := s.clockN + 1 } s.x.comp.nr (0x15 :: segOf data b k) h1 h2
      dsimp only at h
      have ex : (ulSeg env { s with clockN := s.clockN + 1 } (segOf data b k)).x = { s.x with objs := u16 (s.x.objs + 1) } := rfl
      have el : logOf (ulSeg env { s with clockN := s.clockN + 1 } (segOf data b k)) =
        .frame (ctrlFrame s.x.comp.nr (0x15 :: segOf data b k)) (env.sendOk s.slv.node.sendN) :: logOf s := hlog
      generalize ulSeg env { s with clockN := s.clockN + 1 } (segOf data b k) = s1 at h ex el
      have hu : u16 (s.x.objs + 1) = k + 1 := by rw [ho]; exact Nat.mod_eq_of_lt (by omega)
      rw [hu] at ex
      have eb : s1.x.bytes = s.x.bytes := by rw [ex]
      have en : s1.x.comp = s.x.comp := by rw [ex]
      have eo : s1.x.objs = k + 1 := by rw [ex]
      rw [eb, hb] at h
      split at h
      · rename_i hlt
        have hm : min data.length (b + 7 * k + 7) = b + 7 * (k + 1) := by omega
        rw [hm, segOf_fill data b (k + 1) (by omega)] at h
        obtain ⟨m, l, hkm, hm1, hm2, hl', hf, hc, hbl⟩ := ih
          { (s1.setX fun x => { x with bytes := min data.length (b + 7 * (k + 1) + 7) }) with clockN := s1.clockN + 1 } _ b (k + 1) s' (by show 1 ≤ s1.x.comp.nr; rw [en]; exact h1)
          (by show s1.x.comp.nr < _; rw [en]; exact h2) (by omega) (by omega) eo rfl h
        refine ⟨m, l ++ [.frame (ctrlFrame s.x.comp.nr (0x15 :: segOf data b k)) (env.sendOk s.slv.node.sendN)], by omega, hm1, hm2, ?_, ?_,
          hc.trans en, hbl⟩
        · rw [hl']
          show l ++ logOf s1 = _
          rw [el]; simp
        · have hcn : ({ (s1.setX fun x => { x with bytes := min data.length (b + 7 * (k + 1) + 7) }) with clockN := s1.clockN + 1 } : Stack).x.comp.nr = s.x.comp.nr := by
            show s1.x.comp.nr = _; rw [en]
          rw [hcn] at hf
          have : m - k = (m - (k + 1)) + 1 := by omega
          rw [this, List.range'_succ, List.map_cons]
          unfold framesIn at hf ⊢
          rw [List.reverse_append, List.map_append, hf]
          rfl
      · rename_i hge
        have := Option.some.inj h
        subst this
        have hlog2 := ctrlTx_log env s1 s1.x.comp.nr
          [0x16, byteOf s1.x.bytes 1, byteOf s1.x.bytes 0, byteOf s1.x.objs 1, byteOf s1.x.objs 0, 0, 0, 0]
          (by rw [en]; exact h1) (by rw [en]; exact h2)
        have hmin : min data.length (b + 7 * k + 7) = data.length := by omega
        have hmsg : [0x16, byteOf s1.x.bytes 1, byteOf s1.x.bytes 0, byteOf s1.x.objs 1, byteOf s1.x.objs 0, 0, 0, 0] =
            upEnd data.length (k + 1) := by
          unfold upEnd
          rw [eb, eo, hb, hmin, ← byteOf2, ← byteOf2]
          rfl
        rw [hmsg, en] at hlog2
        refine ⟨k + 1, [.frame (ctrlFrame s.x.comp.nr (upEnd data.length (k + 1))) (env.sendOk s1.slv.node.sendN),
          .frame (ctrlFrame s.x.comp.nr (0x15 :: segOf data b k)) (env.sendOk s.slv.node.sendN)], by omega, by omega, by omega, ?_, ?_, en, ?_⟩
        · show logOf (s1.uloadBlockEnd env s1.x.comp.nr) = _
          unfold uloadBlockEnd
          rw [hmsg, en, hlog2, el]
          rfl
        · have : k + 1 - k = 1 := by omega
          rw [this]; rfl
        · show s1.x.bytes = _
          rw [eb, hb, hmin]
    · exact ih { s with clockN := s.clockN + 1 } _ b k s' h1 h2 hk hk0 ho hb h

/-- What one call sends: `b` bytes were already counted since the start request. -/
theorem ulData_sent (env : AEnv) (fuel : Nat) (s s' : Stack) (data : List Byte) (b : Nat) (hl : data.length < 65536)
    (hb : s.x.bytes = b) (hbl : b ≤ data.length) (h1 : 1 ≤ s.x.comp.nr) (h2 : s.x.comp.nr < 16000)
    (h : ulData env fuel s data = some s') :
    ∃ (segs : List (List Byte)) (l : List Ev), logOf s' = l ++ logOf s ∧
      framesIn l = (segs.map fun g => some (ctrlFrame s.x.comp.nr (0x15 :: g))) ++
        [some (ctrlFrame s.x.comp.nr (upEnd data.length segs.length))] ∧
      segs.flatten.take (data.length - b) = data.drop b ∧ (∀ g ∈ segs, g.length = 7) ∧
      segs.flatten.length < data.length - b + 8 ∧ s'.x.bytes = data.length ∧ s'.x.comp = s.x.comp := by
  unfold ulData at h
  dsimp only at h
  have hf := segOf_fill data b 0 (by omega)
  rw [hb, show b = b + 7 * 0 from rfl, hf] at h
  obtain ⟨m, l, hm, hm1, hm2, hlog, hfr, hcm, hbs⟩ := ulLoop_sent env data hl fuel _ _ b 0 s' (by exact h1) (by exact h2) (by omega)
    (Or.inr rfl) rfl rfl h
  refine ⟨(List.range m).map (segOf data b), l, hlog, ?_, segs_take data b m hm1, ?_, ?_, hbs, hcm⟩
  · rw [hfr, List.length_map, List.length_range, List.map_map, Nat.sub_zero, ← List.range_eq_range']
    rfl
  · intro g hg
    obtain ⟨i, -, rfl⟩ := List.mem_map.1 hg
    simp [segOf]
  · rw [segs_flatten, List.length_map, List.length_range]; omega

/-- C44, provable part: the first block of an upload (no bytes counted since the start request).  The
data messages put together are the data, padded in the last message, and the block end announces exactly
the number of bytes and of messages; nothing else is sent and no handler is called, for any behaviour of
the clock.  Missing: further blocks, see `C44_counterexample`. -/
theorem C44_upload_partial (env : AEnv) (fuel : Nat) (s s' : Stack) (data : List Byte) (hl : data.length < 65536)
    (hb : s.x.bytes = 0) (h1 : 1 ≤ s.x.comp.nr) (h2 : s.x.comp.nr < 16000) (h : ulData env fuel s data = some s') :
    ∃ (segs : List (List Byte)) (l : List Ev), logOf s' = l ++ logOf s ∧
      framesIn l = (segs.map fun g => some (ctrlFrame s.x.comp.nr (0x15 :: g))) ++
        [some (ctrlFrame s.x.comp.nr (upEnd data.length segs.length))] ∧
      segs.flatten.take data.length = data ∧ (∀ g ∈ segs, g.length = 7) ∧
      segs.flatten.length < data.length + 8 := by
  obtain ⟨segs, l, ha, hb', hc, hd, he, -, -⟩ := ulData_sent env fuel s s' data 0 hl hb (by omega) h1 h2 h
  exact ⟨segs, l, ha, hb', hc, hd, he⟩

/-- C44 (continued upload).  If the application hands over everything from the beginning of the upload
in each call, the data messages of a call carry exactly the part behind the previous call; the block
end then announces the total number of bytes, not that of the block. -/
theorem C44_continued_partial (env : AEnv) (f1 f2 : Nat) (s s1 s2 : Stack) (d e : List Byte) (hl : (d ++ e).length < 65536)
    (hb : s.x.bytes = 0) (h1 : 1 ≤ s.x.comp.nr) (h2 : s.x.comp.nr < 16000) (hu1 : ulData env f1 s d = some s1)
    (hu2 : ulData env f2 s1 (d ++ e) = some s2) :
    ∃ (segs : List (List Byte)) (l : List Ev), logOf s2 = l ++ logOf s1 ∧
      framesIn l = (segs.map fun g => some (ctrlFrame s.x.comp.nr (0x15 :: g))) ++
        [some (ctrlFrame s.x.comp.nr (upEnd (d.length + e.length) segs.length))] ∧
      segs.flatten.take e.length = e := by
  rw [List.length_append] at hl
  obtain ⟨-, -, -, -, -, -, -, hb1, hc⟩ := ulData_sent env f1 s s1 d 0 (by omega) hb (by omega) h1 h2 hu1
  obtain ⟨segs, l, ha, hf, ht, -, -, -, -⟩ := ulData_sent env f2 s1 s2 (d ++ e) d.length (by rw [List.length_append]; omega) hb1
    (by rw [List.length_append]; omega) (by rw [hc]; omega) (by rw [hc]; omega) hu2
  rw [hc, List.length_append] at hf
  rw [List.length_append, Nat.add_sub_cancel_left, List.drop_left] at ht
  exact ⟨segs, l, ha, hf, ht⟩

/-- an upload of component "COMPONEN" with no delay between the messages -/
def exUp : Stack := recv exA 5 exS [[0x1D, 67, 79, 77, 80, 79, 78, 69], [0x1E, 78, 0, 140, 0, 0, 0, 0]]

/-- nine bytes in two messages -/
example : exUp.x.bytes = 0 ∧ exUp.x.comp.nr = 5 ∧ exUp.x.busy = true ∧
    (ulData exA 10 exUp [1, 2, 3, 4, 5, 6, 7, 8, 9]).map exFrames =
      some [ctrlFrame 5 [0x15, 1, 2, 3, 4, 5, 6, 7], ctrlFrame 5 [0x15, 8, 9, 0, 0, 0, 0, 0],
        ctrlFrame 5 [0x16, 0, 9, 0, 2, 0, 0, 0]] := by decide +kernel

/-- C44, counterexample to the full claim.  The next block of the same upload, after the master has
acknowledged the first: one message with zeros, and nine bytes announced, whatever the application hands over. -/
theorem C44_counterexample :
    exUp.x.busy = true ∧
    ((ulData exA 10 exUp [1, 2, 3, 4, 5, 6, 7, 8, 9]).bind fun s =>
      (ulData exA 10 (s.asyncRx exA 5 [0x1A, 0, 0, 0, 0, 0, 0, 0]).1 [11, 12, 13, 14, 15, 16, 17, 18, 19]).map fun s' =>
        (exApp s', (exFrames s').drop 3)) =
      some ([.hnd .ulStart 16 ⟨5, [67, 79, 77, 80, 79, 78, 69, 78], 0, 0, 0, []⟩,
          .hnd .ulAck 17 ⟨5, [67, 79, 77, 80, 79, 78, 69, 78], 0, 0, 0, []⟩],
        [ctrlFrame 5 [0x15, 0, 0, 0, 0, 0, 0, 0], ctrlFrame 5 [0x16, 0, 9, 0, 1, 0, 0, 0]]) := by decide +kernel

/-! ## C58 -/

theorem ulLoop_last (env : AEnv) (data : List Byte) (s : Stack) (old : Nat) (seg : List Byte)
    (hp : u32 (old + s.x.delay) < env.clock s.clockN) (hb : ¬ s.x.bytes < data.length) :
    ∃ s', ulLoop env data 1 s old seg = some s' := by
  rw [ulLoop_succ, if_pos hp]
  dsimp only
  rw [if_neg (by exact hb)]
  exact ⟨_, rfl⟩

theorem ulLoop_waits (env : AEnv) (data : List Byte) (D : Nat)
    (hadv : ∀ i n, ∃ k, n ≤ k ∧ u32 (env.clock i + D) < env.clock k) (r : Nat) :
    ∀ (s : Stack) (i : Nat) (seg : List Byte), data.length - s.x.bytes ≤ r → s.x.delay = D →
      ∃ fuel s', ulLoop env data fuel s (env.clock i) seg = some s' := by
  induction r with
  | zero =>
    intro s i seg hr hd
    obtain ⟨k, hk, hp⟩ := hadv i s.clockN
    obtain ⟨d, rfl⟩ := Nat.exists_eq_add_of_le hk
    clear hk
    induction d generalizing s with
    | zero =>
      have hp : u32 (env.clock i + D) < env.clock s.clockN := hp
      exact ⟨1, ulLoop_last env data s _ seg (by rw [hd]; exact hp) (by omega)⟩
    | succ d ih =>
      by_cases hp' : u32 (env.clock i + D) < env.clock s.clockN
      · exact ⟨1, ulLoop_last env data s _ seg (by rw [hd]; exact hp') (by omega)⟩
      · obtain ⟨fuel, s', h⟩ := ih { s with clockN := s.clockN + 1 } hr hd (by
          show _ < env.clock (s.clockN + 1 + d)
          rw [show s.clockN + 1 + d = s.clockN + (d + 1) by omega]; exact hp)
        refine ⟨fuel + 1, s', ?_⟩
        rw [ulLoop_succ, hd, if_neg hp']; exact h
  | succ r ihr =>
    have pass : ∀ (s : Stack) (i : Nat) (seg : List Byte), data.length - s.x.bytes ≤ r + 1 → s.x.delay = D →
        u32 (env.clock i + D) < env.clock s.clockN → ∃ fuel s', ulLoop env data fuel s (env.clock i) seg = some s' := by
      intro s i seg hr hd hp
      by_cases hb : s.x.bytes < data.length
      · have hf : (ulFill data s.x.bytes).2 = min data.length (s.x.bytes + 7) := by
          unfold ulFill; rw [if_neg (by omega)]
        obtain ⟨fuel, s', h⟩ := ihr { ((ulSeg env { s with clockN := s.clockN + 1 } seg).setX fun x =>
            { x with bytes := (ulFill data s.x.bytes).2 }) with clockN := s.clockN + 1 + 1 } (s.clockN + 1) (ulFill data s.x.bytes).1
          (by show data.length - (ulFill data s.x.bytes).2 ≤ r; rw [hf]; omega) hd
        refine ⟨fuel + 1, s', ?_⟩
        rw [ulLoop_succ, hd, if_pos hp]
        dsimp only
        rw [if_pos (by show s.x.bytes < _; omega)]
        exact h
      · exact ⟨1, ulLoop_last env data s _ seg (by rw [hd]; exact hp) (by omega)⟩
    intro s i seg hr hd
    obtain ⟨k, hk, hp⟩ := hadv i s.clockN
    obtain ⟨d, rfl⟩ := Nat.exists_eq_add_of_le hk
    clear hk
    induction d generalizing s with
    | zero => exact pass s i seg hr hd hp
    | succ d ih =>
      by_cases hp' : u32 (env.clock i + D) < env.clock s.clockN
      · exact pass s i seg hr hd hp'
      · obtain ⟨fuel, s', h⟩ := ih { s with clockN := s.clockN + 1 } hr hd (by
          show _ < env.clock (s.clockN + 1 + d)
          rw [show s.clockN + 1 + d = s.clockN + (d + 1) by omega]; exact hp)
        refine ⟨fuel + 1, s', ?_⟩
        rw [ulLoop_succ, hd, if_neg hp']; exact h

/-- C58, provable part.  The upload of a block returns if, from every moment on, the tick counter
still gets past every waiting time once (compared as numbers, the sum being cut to 32 bits). -/
theorem C58_upload_returns_partial (env : AEnv) (s : Stack) (data : List Byte)
    (hadv : ∀ i n, ∃ k, n ≤ k ∧ (env.clock i + s.x.delay) % 4294967296 < env.clock k) :
    ∃ fuel s', ulData env fuel s data = some s' :=
  ulLoop_waits env data s.x.delay hadv _ _ _ _ (Nat.le_refl _) rfl

/-- a clock that advances by 10 per reading -/
example : ∀ i n, ∃ k, n ≤ k ∧ (exA.clock i + exUp.x.delay) % 4294967296 < exA.clock k := by
  intro i n
  refine ⟨n + (exA.clock i + exUp.x.delay) % 4294967296, by omega, ?_⟩
  show _ < 10 * _ + 10
  omega

/-- C58, counterexample to the unconditional claim.  The tick counter runs through all its values again
and again (32 bit, one step per reading).  It shows 2^32 - 1 when the upload starts and no delay is
requested: the upload never returns. -/
theorem C58_counterexample :
    let env : AEnv := { exA with clock := fun k => (k + 4294967295) % 4294967296 }
    exUp.x.delay = 0 ∧ exUp.clockN = 0 ∧
    (∀ v n, v < 4294967296 → ∃ k, n ≤ k ∧ env.clock k = v) ∧
    ∀ fuel, ulData env fuel exUp [1, 2, 3] = none := by
  intro env
  have hd : exUp.x.delay = 0 := by decide +kernel
  have hc : exUp.clockN = 0 := by decide +kernel
  refine ⟨hd, hc, ?_, ?_⟩
  · intro v n hv
    refine ⟨n * 4294967296 + v + 1, by omega, ?_⟩
    show (_ + 4294967295) % 4294967296 = v
    omega
  · have key : ∀ fuel (s : Stack) seg, s.x.delay = 0 → ulLoop env [1, 2, 3] fuel s 4294967295 seg = none := by
      intro fuel
      induction fuel with
      | zero => intro s seg _; rfl
      | succ fuel ih =>
        intro s seg h
        rw [ulLoop_succ, h]
        have hn : ¬ u32 (4294967295 + 0) < env.clock s.clockN := by
          show ¬ (4294967295 + 0) % 4294967296 < (s.clockN + 4294967295) % 4294967296
          omega
        rw [if_neg hn]
        exact ih _ _ h
    intro fuel
    unfold ulData
    dsimp only
    have h0 : env.clock exUp.clockN = 4294967295 := by rw [hc]
    rw [h0]
    exact key _ _ _ hd

end Stack
end LiCan
