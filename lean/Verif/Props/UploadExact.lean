import Verif.Props.Upload
/-! # C44, exact: what every call of the upload function sends -/
namespace LiCan
open Spec
namespace Stack
open Slave (at8 byteOf)

theorem ulLoop_behind (env : AEnv) (data : List Byte) (fuel : Nat) : ∀ (s : Stack) (old : Nat) (seg : List Byte) (s' : Stack),
    1 ≤ s.x.comp.nr → s.x.comp.nr < 16000 → s.x.objs = 0 → data.length < s.x.bytes →
    ulLoop env data fuel s old seg = some s' →
    ∃ l, logOf s' = l ++ logOf s ∧
      framesIn l = [some (ctrlFrame s.x.comp.nr (0x15 :: seg)), some (ctrlFrame s.x.comp.nr (upEnd s.x.bytes 1))] ∧
      s'.x.comp = s.x.comp ∧ s'.x.bytes = s.x.bytes := by
  induction fuel with
  | zero => intro s old seg s' _ _ _ _ h; cases h
  | succ fuel ih =>
    intro s old seg s' h1 h2 ho hb h
    rw [ulLoop_succ] at h
    split at h
    · have hlog := ctrlTx_log env { s with clockN := s.clockN + 1 } s.x.comp.nr (0x15 :: seg) h1 h2
      dsimp only at h
      have ex : (ulSeg env { s with clockN := s.clockN + 1 } seg).x = { s.x with objs := u16 (s.x.objs + 1) } := rfl
      have el : logOf (ulSeg env { s with clockN := s.clockN + 1 } seg) =
        .frame (ctrlFrame s.x.comp.nr (0x15 :: seg)) (env.sendOk s.slv.node.sendN) :: logOf s := hlog
      generalize ulSeg env { s with clockN := s.clockN + 1 } seg = s1 at h ex el
      rw [ho] at ex
      have eb : s1.x.bytes = s.x.bytes := by rw [ex]
      have en : s1.x.comp = s.x.comp := by rw [ex]
      have eo : s1.x.objs = 1 := by rw [ex]
      rw [if_neg (by rw [eb]; omega)] at h
      have := Option.some.inj h
      subst this
      have hlog2 := ctrlTx_log env s1 s1.x.comp.nr
        [0x16, byteOf s1.x.bytes 1, byteOf s1.x.bytes 0, byteOf s1.x.objs 1, byteOf s1.x.objs 0, 0, 0, 0]
        (by rw [en]; exact h1) (by rw [en]; exact h2)
      have hmsg : [0x16, byteOf s1.x.bytes 1, byteOf s1.x.bytes 0, byteOf s1.x.objs 1, byteOf s1.x.objs 0, 0, 0, 0] =
          upEnd s.x.bytes 1 := by
        unfold upEnd
        rw [eb, eo, ← byteOf2, ← byteOf2]
        rfl
      rw [hmsg, en] at hlog2
      refine ⟨[.frame (ctrlFrame s.x.comp.nr (upEnd s.x.bytes 1)) (env.sendOk s1.slv.node.sendN),
        .frame (ctrlFrame s.x.comp.nr (0x15 :: seg)) (env.sendOk s.slv.node.sendN)], ?_, rfl, en, eb⟩
      show logOf (s1.uloadBlockEnd env s1.x.comp.nr) = _
      unfold uloadBlockEnd
      rw [hmsg, en, hlog2, el]
      rfl
    · exact ih { s with clockN := s.clockN + 1 } _ seg s' h1 h2 ho hb h

/-- C44, exact: what any call of the upload function sends, whatever was transferred before.  Let `b` be the number of bytes counted so far (0
after a start request).  The messages carry what the application hands over from byte `b` on, filled up with zeros; there is at least one;
the block end announces the greater one of `b` and the length, and the right number of messages; after the call that many bytes are
counted.  So the data arrive complete and are announced correctly for the first block only. -/
theorem C44_exact (env : AEnv) (fuel : Nat) (s s' : Stack) (data : List Byte) (hl : data.length < 65536)
    (h1 : 1 ≤ s.x.comp.nr) (h2 : s.x.comp.nr < 16000) (h : ulData env fuel s data = some s') :
    ∃ (segs : List (List Byte)) (pad : List Byte) (l : List Ev), logOf s' = l ++ logOf s ∧
      framesIn l = (segs.map fun g => some (ctrlFrame s.x.comp.nr (0x15 :: g))) ++
        [some (ctrlFrame s.x.comp.nr (upEnd (max s.x.bytes data.length) segs.length))] ∧
      segs.flatten = data.drop s.x.bytes ++ pad ∧ (∀ p ∈ pad, p = 0) ∧ (∀ g ∈ segs, g.length = 7) ∧
      segs.length = max 1 ((data.length - s.x.bytes + 6) / 7) ∧
      s'.x.bytes = max s.x.bytes data.length ∧ s'.x.comp = s.x.comp := by
  by_cases hb : s.x.bytes ≤ data.length
  · unfold ulData at h
    dsimp only at h
    have hf := segOf_fill data s.x.bytes 0 (by omega)
    rw [Nat.mul_zero, Nat.add_zero] at hf
    rw [hf] at h
    obtain ⟨m, l, hm, hm1, hm2, hlog, hfr, hcm, hbs⟩ := ulLoop_sent env data hl fuel _ _ s.x.bytes 0 s' (by exact h1) (by exact h2) (by omega)
      (Or.inr rfl) rfl rfl h
    refine ⟨(List.range m).map (segOf data s.x.bytes),
      (List.range (7 * m - (data.length - s.x.bytes))).map fun _ => 0, l, hlog, ?_, ?_, ?_, ?_, ?_, ?_, hcm⟩
    · rw [hfr, List.length_map, List.length_range, List.map_map, Nat.sub_zero, ← List.range_eq_range', Nat.max_eq_right hb]
      rfl
    · rw [segs_flatten]
      apply List.ext_getElem
      · simp; omega
      · intro i h3 h4
        by_cases hi : i < data.length - s.x.bytes
        · rw [List.getElem_append_left (by rw [List.length_drop]; exact hi)]
          simp [show s.x.bytes + i < data.length by omega]
        · rw [List.getElem_append_right (by rw [List.length_drop]; omega)]
          simp [show ¬ s.x.bytes + i < data.length by omega]
    · intro p hp
      obtain ⟨-, -, rfl⟩ := List.mem_map.1 hp
      rfl
    · intro g hg
      obtain ⟨i, -, rfl⟩ := List.mem_map.1 hg
      simp [segOf]
    · rw [List.length_map, List.length_range]; omega
    · rw [hbs, Nat.max_eq_right hb]
  · have hb : data.length < s.x.bytes := by omega
    have hf : ulFill data s.x.bytes = (List.replicate 7 0, s.x.bytes) := by
      unfold ulFill
      rw [if_pos hb]
      have : (List.range 7).map (fun k => data.getD (s.x.bytes + k) 0) = List.replicate 7 (0 : Byte) := by
        apply List.ext_getElem
        · simp
        · intro i h3 h4
          rw [List.getElem_replicate, List.getElem_map, List.getElem_range, List.getD_eq_getElem?_getD, List.getElem?_eq_none (by omega)]
          rfl
      rw [this]
    unfold ulData at h
    dsimp only at h
    rw [hf] at h
    obtain ⟨l, hlog, hfr, hcm, hbs⟩ := ulLoop_behind env data fuel _ _ _ s' (by exact h1) (by exact h2) rfl (by exact hb) h
    refine ⟨[List.replicate 7 0], List.replicate 7 0, l, hlog, ?_, ?_, ?_, ?_, ?_, ?_, hcm⟩
    · rw [hfr, Nat.max_eq_left (by omega)]
      rfl
    · rw [List.drop_eq_nil_of_le (by omega)]; rfl
    · intro p hp; exact (List.mem_replicate.1 hp).2
    · intro g hg; rw [List.mem_singleton.1 hg]; rfl
    · rw [show data.length - s.x.bytes = 0 by omega]; rfl
    · exact Eq.trans (b := s.x.bytes) hbs (Nat.max_eq_left (Nat.le_of_lt hb)).symm

/-- blocks handed over one after the other, with nothing in between that changes the transfer -/
def ulBlocks (env : AEnv) : Stack → List (Nat × List Byte) → Option Stack
  | s, [] => some s
  | s, (fuel, d) :: ds => (ulData env fuel s d).bind fun s' => ulBlocks env s' ds

/-- C44, exact for a whole upload: after any number of blocks, the next one sends only what is behind the longest one so far, and announces
at least the length of the longest one. -/
theorem C44_later_block (env : AEnv) (ds : List (Nat × List Byte)) : ∀ (s s1 s2 : Stack) (fuel : Nat) (data : List Byte),
    (∀ d ∈ ds, d.2.length < 65536) → data.length < 65536 → 1 ≤ s.x.comp.nr → s.x.comp.nr < 16000 →
    ulBlocks env s ds = some s1 → ulData env fuel s1 data = some s2 →
    ∃ (segs : List (List Byte)) (pad : List Byte) (l : List Ev), logOf s2 = l ++ logOf s1 ∧
      framesIn l = (segs.map fun g => some (ctrlFrame s.x.comp.nr (0x15 :: g))) ++
        [some (ctrlFrame s.x.comp.nr (upEnd (max (ds.foldl (fun m d => max m d.2.length) s.x.bytes) data.length) segs.length))] ∧
      segs.flatten = data.drop (ds.foldl (fun m d => max m d.2.length) s.x.bytes) ++ pad ∧ (∀ p ∈ pad, p = 0) ∧
      ∀ g ∈ segs, g.length = 7 := by
  induction ds with
  | nil =>
    intro s s1 s2 fuel data _ hl h1 h2 hb h
    cases hb
    obtain ⟨segs, pad, l, a, b, c, d, e, -⟩ := C44_exact env fuel s s2 data hl h1 h2 h
    exact ⟨segs, pad, l, a, b, c, d, e⟩
  | cons d ds ih =>
    intro s s1 s2 fuel data hd hl h1 h2 hb h
    obtain ⟨f, d⟩ := d
    rw [ulBlocks, Option.bind_eq_some_iff] at hb
    obtain ⟨t, ht, hb⟩ := hb
    obtain ⟨-, -, -, -, -, -, -, -, -, e1, e2⟩ := C44_exact env f s t d (hd _ (List.mem_cons_self ..)) h1 h2 ht
    have := ih t s1 s2 fuel data (fun x hx => hd x (List.mem_cons_of_mem _ hx)) hl (by rw [e2]; exact h1) (by rw [e2]; exact h2) hb h
    rw [e1, e2] at this
    exact this

/-- C44: three blocks of an upload; the third is longer than the others and its end arrives. -/
example : exUp.x.comp.nr = 5 ∧
    (ulBlocks exA exUp [(10, [1, 2, 3, 4, 5, 6, 7, 8, 9]), (10, [11, 12])]).isSome = true ∧
    ((ulBlocks exA exUp [(10, [1, 2, 3, 4, 5, 6, 7, 8, 9]), (10, [11, 12])]).bind fun s =>
      (ulData exA 10 s [21, 22, 23, 24, 25, 26, 27, 28, 29, 30, 31]).map fun s' => (exFrames s').drop 5) =
      some [ctrlFrame 5 [0x15, 30, 31, 0, 0, 0, 0, 0], ctrlFrame 5 [0x16, 0, 11, 0, 1, 0, 0, 0]] := by decide +kernel

end Stack
end LiCan
