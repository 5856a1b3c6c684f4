import Verif.Model.InfoTorn
import Verif.Props.InfoMem
/-! # C143: a reset in the middle of a write of the transfer info -/

/-! ## Specification -/
namespace LiCan.Spec

/-- the same except for two neighbouring bytes -/
def Near (a b : List Byte) : Prop := ∃ o, ∀ i, i ≠ o → i ≠ o + 1 → a[i]? = b[i]?

/-- a checksum that notices every change of two neighbouring bytes -/
def Detects (init : Nat) (sum : Nat → List Byte → Nat) : Prop :=
  ∀ a b : List Byte, a.length = b.length → a ≠ b → Near a b → sum (init % 65536) a % 65536 ≠ sum (init % 65536) b % 65536

/-- one bit of a cyclic redundancy check of 16 bits with the polynomial `poly` -/
def crcBit (poly s : BitVec 16) (b : Bool) : BitVec 16 := (s <<< 1) ^^^ (if s.msb != b then poly else 0)

/-- a cyclic redundancy check; `bits`: the order of the bits in a byte, `inp`, `out`: what is done to the start value and to the result -/
def crcOf (poly : BitVec 16) (bits : Byte → List Bool) (inp : Nat → BitVec 16) (out : BitVec 16 → Nat) (s : Nat) (bs : List Byte) : Nat :=
  out ((bs.flatMap bits).foldl (crcBit poly) (inp s))

/-- the bits of a byte, the highest first -/
def msbFirst (x : Byte) : List Bool := (List.range 8).map fun i => x.toNat.testBit (7 - i)

end LiCan.Spec

namespace LiCan.InfoMem
open Spec
open AppConv (native_length)

/-! ## Cyclic redundancy checks -/

/-- the lowest `n` bits are the same -/
def Low (n : Nat) (s t : BitVec 16) : Prop := ∀ i, i < n → s.getLsbD i = t.getLsbD i

theorem crcBit_lsb (poly s : BitVec 16) (b : Bool) (i : Nat) (h : i < 16) :
    (crcBit poly s b).getLsbD i = ((decide (0 < i) && s.getLsbD (i - 1)) ^^ ((s.msb != b) && poly.getLsbD i)) := by
  unfold crcBit
  rw [BitVec.getLsbD_xor, BitVec.getLsbD_shiftLeft]
  have h1 : (!decide (i < 1)) = decide (0 < i) := by
    by_cases h0 : 0 < i
    · simp [h0]; omega
    · simp [h0]; omega
  rw [h1]
  congr 1
  · simp [h]
  · cases (s.msb != b) <;> simp

theorem low_back {poly : BitVec 16} (hp : poly.getLsbD 0 = true) {n : Nat} (hn : n + 1 ≤ 16) {s t : BitVec 16} {a b : Bool}
    (h : Low (n + 1) (crcBit poly s a) (crcBit poly t b)) : (s.msb != a) = (t.msb != b) ∧ Low n s t := by
  have h0 := h 0 (by omega)
  rw [crcBit_lsb _ _ _ _ (by omega), crcBit_lsb _ _ _ _ (by omega), hp] at h0
  have h0 : (s.msb != a) = (t.msb != b) := by simpa using h0
  refine ⟨h0, fun i hi => ?_⟩
  have h1 := h (i + 1) (by omega)
  rw [crcBit_lsb _ _ _ _ (by omega), crcBit_lsb _ _ _ _ (by omega), h0] at h1
  simpa using h1

theorem low_eq {s t : BitVec 16} (h : Low 16 s t) : s = t := BitVec.eq_of_getLsbD_eq fun i hi => h i hi

theorem crcBit_inj {poly : BitVec 16} (hp : poly.getLsbD 0 = true) {s t : BitVec 16} {b : Bool} (h : crcBit poly s b = crcBit poly t b) : s = t := by
  obtain ⟨h1, h2⟩ := low_back (n := 15) hp (by omega) (a := b) (b := b) (s := s) (t := t) (fun i _ => by rw [h])
  refine low_eq fun i hi => ?_
  by_cases h15 : i < 15
  · exact h2 i h15
  · have : i = 15 := by omega
    subst this
    have h1 : s.msb = t.msb := by
      revert h1; cases s.msb <;> cases t.msb <;> cases b <;> simp
    simpa [BitVec.msb_eq_getLsbD_last] using h1

theorem fold_inj {poly : BitVec 16} (hp : poly.getLsbD 0 = true) (u : List Bool) : ∀ {s t : BitVec 16},
    u.foldl (crcBit poly) s = u.foldl (crcBit poly) t → s = t := by
  induction u with
  | nil => intro s t h; exact h
  | cons b u ih => intro s t h; exact crcBit_inj hp (ih h)

theorem fold_low {poly : BitVec 16} (hp : poly.getLsbD 0 = true) (u : List Bool) : ∀ (w : List Bool) {s t : BitVec 16} {n : Nat}, n ≤ 16 →
    w.length = u.length → u.length ≤ n → Low n (u.foldl (crcBit poly) s) (w.foldl (crcBit poly) t) → Low (n - u.length) s t := by
  induction u with
  | nil =>
    intro w s t n _ hw _ h
    rw [List.length_nil, List.length_eq_zero_iff] at hw
    subst hw; exact h
  | cons b u ih =>
    intro w s t n hn hw hl h
    cases w with
    | nil => simp at hw
    | cons a w =>
      simp only [List.length_cons] at hl hw ⊢
      have := ih w hn (by omega) (by omega) h
      have e : n - u.length = (n - (u.length + 1)) + 1 := by omega
      rw [e] at this
      exact (low_back hp (by omega) this).2

theorem fold_window {poly : BitVec 16} (hp : poly.getLsbD 0 = true) (u : List Bool) : ∀ (w : List Bool) {s : BitVec 16},
    w.length = u.length → u.length ≤ 16 → u.foldl (crcBit poly) s = w.foldl (crcBit poly) s → u = w := by
  induction u with
  | nil => intro w s hw _ _; exact (List.length_eq_zero_iff.mp hw).symm
  | cons b u ih =>
    intro w s hw hl h
    cases w with
    | nil => simp at hw
    | cons a w =>
      simp only [List.length_cons] at hl hw
      have h : u.foldl (crcBit poly) (crcBit poly s b) = w.foldl (crcBit poly) (crcBit poly s a) := h
      have hlow := fold_low hp u w (n := 16) (by omega) (by omega) (by omega) (fun i _ => by rw [h])
      have e : 16 - u.length = (15 - u.length) + 1 := by omega
      rw [e] at hlow
      have hx := (low_back hp (by omega) hlow).1
      have hab : b = a := by revert hx; cases s.msb <;> cases a <;> cases b <;> simp
      subst hab
      rw [ih w (by omega) (by omega) h]

theorem near_split {a b : List Byte} (hl : a.length = b.length) (h : Near a b) :
    ∃ pre x y post : List Byte, a = pre ++ x ++ post ∧ b = pre ++ y ++ post ∧ x.length = y.length ∧ x.length ≤ 2 := by
  obtain ⟨o, h⟩ := h
  refine ⟨a.take o, (a.drop o).take 2, (b.drop o).take 2, a.drop (o + 2), ?_, ?_, ?_, ?_⟩
  · rw [List.append_assoc, ← List.drop_drop, List.take_append_drop, List.take_append_drop]
  · have h1 : a.take o = b.take o := by
      apply List.ext_getElem?
      intro i
      by_cases hi : i < o
      · rw [List.getElem?_take_of_lt hi, List.getElem?_take_of_lt hi]; exact h i (by omega) (by omega)
      · rw [List.getElem?_eq_none (by rw [List.length_take]; omega), List.getElem?_eq_none (by rw [List.length_take]; omega)]
    have h2 : a.drop (o + 2) = b.drop (o + 2) := by
      apply List.ext_getElem?
      intro i
      rw [List.getElem?_drop, List.getElem?_drop]; exact h _ (by omega) (by omega)
    rw [h1, h2, List.append_assoc, ← List.drop_drop, List.take_append_drop, List.take_append_drop]
  · simp [hl]
  · rw [List.length_take]; omega

theorem flatMap_inj {bits : Byte → List Bool} (h8 : ∀ x, (bits x).length = 8) (hi : ∀ x y, bits x = bits y → x = y) (x : List Byte) :
    ∀ y : List Byte, x.length = y.length → x.flatMap bits = y.flatMap bits → x = y := by
  induction x with
  | nil => intro y hl _; exact (List.length_eq_zero_iff.mp hl.symm).symm
  | cons a x ih =>
    intro y hl h
    cases y with
    | nil => simp at hl
    | cons b y =>
      simp only [List.flatMap_cons] at h
      obtain ⟨h1, h2⟩ := List.append_inj h (by rw [h8, h8])
      rw [hi _ _ h1, ih y (by simpa using hl) h2]

theorem flatMap_length {bits : Byte → List Bool} (h8 : ∀ x, (bits x).length = 8) (x : List Byte) : (x.flatMap bits).length = 8 * x.length := by
  induction x with
  | nil => rfl
  | cons a x ih => simp only [List.flatMap_cons, List.length_append, h8, ih, List.length_cons]; omega

/-- **C143**, checksums: every cyclic redundancy check of 16 bits whose polynomial has the term 1, in every order of the bits, with every start value
and every reversible treatment of the result, notices every change of two neighbouring bytes, in blocks of every length. -/
theorem C143_crc (poly : BitVec 16) (hp : poly.getLsbD 0 = true) (bits : Byte → List Bool) (h8 : ∀ x, (bits x).length = 8)
    (hi : ∀ x y, bits x = bits y → x = y) (inp : Nat → BitVec 16) (out : BitVec 16 → Nat)
    (ho : ∀ s t, out s % 65536 = out t % 65536 → s = t) (init : Nat) : Detects init (crcOf poly bits inp out) := by
  intro a b hl hne hnear he
  obtain ⟨pre, x, y, post, rfl, rfl, hxy, hx2⟩ := near_split hl hnear
  apply hne
  have he := ho _ _ he
  simp only [List.flatMap_append, List.foldl_append] at he
  have he := fold_window hp _ _ (by rw [flatMap_length h8, flatMap_length h8, hxy]) (by rw [flatMap_length h8]; omega) (fold_inj hp _ he)
  rw [flatMap_inj h8 hi x y hxy he]

theorem msbFirst_length (x : Byte) : (msbFirst x).length = 8 := by simp [msbFirst]

theorem msbFirst_inj (x y : Byte) (h : msbFirst x = msbFirst y) : x = y := by
  apply UInt8.toNat_inj.1
  apply Nat.eq_of_testBit_eq
  intro i
  by_cases hi : i < 8
  · have := congrArg (fun l => l[7 - i]?) h
    simp only [msbFirst, List.getElem?_map] at this
    rw [List.getElem?_range (by omega)] at this
    simp only [Option.map_some, Option.some.injEq] at this
    rwa [show 7 - (7 - i) = i by omega] at this
  · have hx : x.toNat < 2 ^ i := Nat.lt_of_lt_of_le x.toNat_lt (Nat.pow_le_pow_right (by omega) (by omega))
    have hy : y.toNat < 2 ^ i := Nat.lt_of_lt_of_le y.toNat_lt (Nat.pow_le_pow_right (by omega) (by omega))
    rw [Nat.testBit_lt_two_pow hx, Nat.testBit_lt_two_pow hy]

/-! ## The memory after a reset -/

section torn
variable (p : Plat) (v : Variant) (c : Sum)

theorem stored_eq (m : List Byte) (op : Op) : stored p v c m op = written p v m op ∨ (op = .init ∧ checkCrc p v c m = true ∧ stored p v c m op = m) := by
  cases op with
  | init =>
    simp only [stored]
    split
    · rename_i h; exact .inr ⟨trivial, h, rfl⟩
    · exact .inl rfl
  | _ => exact .inl rfl

theorem stored_length (hp : p.Ok) (m : List Byte) (hm : m.length = bytesOf (info p v)) (op : Op) (ho : op.ok p v) :
    (stored p v c m op).length = bytesOf (info p v) := by
  rcases stored_eq p v c m op with h | h
  · rw [h]; exact written_length p v hp m hm op ho
  · rw [h.2.2]; exact hm

theorem load_length (m : List Byte) (o n : Nat) (h : o + n ≤ m.length) : (load m o n).length = n := by
  unfold load; rw [List.length_take, List.length_drop]; omega

/-- no call stores into the checksum or behind it -/
theorem written_other (hp : p.Ok) (m : List Byte) (hm : m.length = bytesOf (info p v)) (op : Op) (ho : op.ok p v) (j : Member)
    (hj : j = .crc ∨ j = .tmp1 ∨ j = .tmp2) (hv : has v j = true) :
    get p v (written p v m op) j (width p j) = get p v m j (width p j) := by
  have one : ∀ (k : Member) (bs : List Byte), has v k = true → k ≠ j → bs.length = width p k →
      get p v (put p v m k bs) j (width p j) = get p v m j (width p j) :=
    fun k bs hk hc hb => get_put_other p v hp m hm k j hk hv hc bs hb
  have wipe : get p v (wiped p v m) j (width p j) = get p v m j (width p j) := by
    apply (wiped_spec p v hp m hm).2.2 j hv <;> rcases hj with h | h | h <;> subst h <;> decide
  have ne : ∀ k : Member, k ≠ .crc → k ≠ .tmp1 → k ≠ .tmp2 → k ≠ j := by
    intro k h1 h2 h3
    rcases hj with h | h | h <;> subst h <;> assumption
  cases op with
  | mode x => exact one .mode _ rfl (ne _ (by decide) (by decide) (by decide)) (native_length ..)
  | reset x => exact one .reset _ (by simp [has]; exact ho) (ne _ (by decide) (by decide) (by decide)) (native_length ..)
  | comp bs => exact one .dload _ rfl (ne _ (by decide) (by decide) (by decide)) ho
  | baud x => exact one .baud _ rfl (ne _ (by decide) (by decide) (by decide)) (native_length ..)
  | user1 x => exact one .user1 _ (by simp [has]; exact ho) (ne _ (by decide) (by decide) (by decide)) rfl
  | user2 x => exact one .user2 _ (by simp [has]; exact ho) (ne _ (by decide) (by decide) (by decide)) rfl
  | clean => exact wipe
  | init => exact wipe

theorem get_at {a b : List Byte} {o n : Nat} (h : load a o n = load b o n) (i : Nat) (h1 : o ≤ i) (h2 : i < o + n) : a[i]? = b[i]? := by
  have := congrArg (fun l => l[i - o]?) h
  simp only [load_get] at this
  rw [if_pos (by omega), if_pos (by omega), show o + (i - o) = i by omega] at this
  exact this

/-- where the last members of a packed structure lie -/
theorem packed_end (h : p.packed = true) : bytesOf (info p v) = crcAt p v + 2 + (if v = .backward then 2 else 0) ∧
    (v = .backward → offset (info p v) .tmp1 = crcAt p v + 2 ∧ offset (info p v) .tmp2 = crcAt p v + 3) := by
  cases v <;>
    simp [crcAt, info, h, members, bytesOf, offset, place, alignOf, roundUp_one]

theorem stored_tail (hp : p.Ok) (hk : p.packed = true) (m : List Byte) (hm : m.length = bytesOf (info p v)) (op : Op) (ho : op.ok p v) (i : Nat)
    (hi : crcAt p v ≤ i) : (stored p v c m op)[i]? = m[i]? := by
  rcases stored_eq p v c m op with h | h
  · rw [h]
    obtain ⟨h1, h2⟩ := packed_end p v hk
    have hw := written_length p v hp m hm op ho
    by_cases hi2 : i < crcAt p v + 2
    · exact get_at (written_other p v hp m hm op ho .crc (.inl rfl) rfl) i hi hi2
    · by_cases hb : v = .backward
      · obtain ⟨h3, h4⟩ := h2 hb
        rw [if_pos hb] at h1
        have t1 := written_other p v hp m hm op ho .tmp1 (.inr (.inl rfl)) (by simp [has, hb])
        have t2 := written_other p v hp m hm op ho .tmp2 (.inr (.inr rfl)) (by simp [has, hb])
        unfold get at t1 t2
        rw [h3] at t1
        rw [h4] at t2
        by_cases e1 : i = crcAt p v + 2
        · exact get_at t1 i (by omega) (by rw [e1]; exact Nat.lt_succ_self _)
        · by_cases e2 : i = crcAt p v + 3
          · exact get_at t2 i (by omega) (by rw [e2]; exact Nat.lt_succ_self _)
          · rw [List.getElem?_eq_none (by omega), List.getElem?_eq_none (by omega)]
      · rw [if_neg hb] at h1
        rw [List.getElem?_eq_none (by omega), List.getElem?_eq_none (by omega)]
  · rw [h.2.2]

theorem written_crc (hp : p.Ok) (m : List Byte) (hm : m.length = bytesOf (info p v)) (op : Op) (ho : op.ok p v) :
    load (written p v m op) (crcAt p v) 2 = load m (crcAt p v) 2 :=
  written_other p v hp m hm op ho .crc (.inl rfl) rfl

theorem stored_crc (hp : p.Ok) (m : List Byte) (hm : m.length = bytesOf (info p v)) (op : Op) (ho : op.ok p v) :
    load (stored p v c m op) (crcAt p v) 2 = load m (crcAt p v) 2 := by
  rcases stored_eq p v c m op with h | h
  · rw [h]; exact written_crc p v hp m hm op ho
  · rw [h.2.2]

theorem part_load {a b r : List Byte} (h : Part a b r) (o n : Nat) (hab : load b o n = load a o n) : load r o n = load a o n := by
  apply List.ext_getElem?
  intro i
  rw [load_get, load_get]
  split
  · rename_i hi
    have hb : b[o + i]? = a[o + i]? := by
      have := congrArg (fun l => l[i]?) hab
      simpa [load_get, hi] using this
    rcases h.2 (o + i) with h | h
    · exact h
    · rw [h, hb]
  · rfl

theorem init_ok (m : List Byte) : (init p v c m).2 = E.ok ↔ checkCrc p v c m = true := by
  unfold init
  split
  · rename_i h; simp [h]
  · rename_i h; simp only [h]; decide

/-- what a call leaves is what it stored, with the sum over it -/
theorem step_stored (hp : p.Ok) (ha : Apart (covered p v) (crcAt p v)) (m : List Byte) (hm : m.length = bytesOf (info p v)) (op : Op) (ho : op.ok p v)
    (hn : op = .init → checkCrc p v c m = false) :
    step p v c m op = store (stored p v c m op) (crcAt p v)
      (native p.le 2 (c.update (u16 c.init) ((stored p v c m op).take (covered p v)))) := by
  have e : step p v c m op = updateCrc p v c (stored p v c m op) := by
    cases op with
    | init =>
      have h := hn rfl
      show (init p v c m).1 = _
      simp only [init, stored, h]; rfl
    | _ => rfl
  have hl : crcAt p v + 2 ≤ (stored p v c m op).length := by
    rw [stored_length p v c hp m hm op ho]; exact info_inside p v hp .crc rfl
  rw [e, updateCrc_eq p v c _ hl]
  unfold sumWith
  rw [take_store _ _ _ (by rw [native_length]; exact hl) _ ha]

/-- **C143**, exactly: with the structure packed, on every platform, in each variant and with every checksum, the start after a reset in the middle of
any call, whatever the memory held before, accepts the info if and only if it is the one the completed call would have left, or the checksum stored
before the call happens to be also the sum of the bytes in the memory now. -/
theorem C143_exact (hp : p.Ok) (hk : p.packed = true) (m : List Byte) (hm : m.length = bytesOf (info p v)) (op : Op) (ho : op.ok p v) (r : List Byte)
    (hr : Torn p v c m op r) :
    (init p v c r).2 = E.ok ↔ r = step p v c m op ∨
      (load r (crcAt p v) 2 = load m (crcAt p v) 2 ∧ load m (crcAt p v) 2 = native p.le 2 (c.update (u16 c.init) (r.take (covered p v)))) := by
  have ha : Apart (covered p v) (crcAt p v) := Nat.le_of_eq (packed_apart p v hk)
  have hfit : crcAt p v + 2 ≤ (stored p v c m op).length := by
    rw [stored_length p v c hp m hm op ho]; exact info_inside p v hp .crc rfl
  rw [init_ok]
  constructor
  · intro hc
    unfold checkCrc at hc
    rw [decide_eq_true_eq] at hc
    cases hr with
    | data r hpart =>
      have := part_load hpart _ _ (stored_crc p v c hp m hm op ho)
      exact .inr ⟨this, by rw [← this]; exact hc⟩
    | sum cs hcs hn =>
      left
      rw [take_store _ _ _ (by rw [hcs]; exact hfit) _ ha] at hc
      have hl := load_same (stored p v c m op) (crcAt p v) cs (by rw [hcs]; exact hfit)
      rw [hcs] at hl
      rw [hl] at hc
      rw [hc, step_stored p v c hp ha m hm op ho hn]
  · rintro (h | ⟨h1, h2⟩)
    · rw [h]
      have := C117_valid p v c hp hk m hm [op] (by simpa using ho) (by simp)
      rw [← init_ok]
      show (init p v c (run p v c m [op])).2 = _
      rw [this]
    · unfold checkCrc
      rw [decide_eq_true_eq, h1, h2]

/-- **C143**, provable part: with a checksum that notices every change of two neighbouring bytes (`C143_crc`), if the info was valid and the call
changes at most two neighbouring bytes, the start after a reset in the middle of the call finds exactly the info before the call or exactly the
info after it, or rejects what it finds.  Missing: calls that change more, see `C143_counterexample`. -/
theorem C143_partial (hp : p.Ok) (hk : p.packed = true) (hd : Detects c.init c.update) (m : List Byte) (hm : m.length = bytesOf (info p v))
    (hv : (init p v c m).2 = E.ok) (op : Op) (ho : op.ok p v) (hn : Near m (stored p v c m op)) (r : List Byte) (hr : Torn p v c m op r) :
    init p v c r = (m, E.ok) ∨ init p v c r = (step p v c m op, E.ok) ∨ (init p v c r).2 = E.infoBadCrc := by
  have acc : ∀ r, (init p v c r).2 = E.ok → init p v c r = (r, E.ok) := by
    intro r h
    rw [init_ok] at h
    unfold init; rw [if_pos h]
  by_cases hok : (init p v c r).2 = E.ok
  · rw [acc r hok]
    rcases (C143_exact p v c hp hk m hm op ho r hr).mp hok with h | ⟨h1, h2⟩
    · exact .inr (.inl (by rw [h]))
    · rw [init_ok] at hv
      unfold checkCrc at hv
      rw [decide_eq_true_eq, h2] at hv
      have hsum := native_inj p.le 2 _ _ hv
      have hpart : Part m (stored p v c m op) r := by
        cases hr with
        | data r hpart => exact hpart
        | sum cs hcs hnn =>
          have hsl := stored_length p v c hp m hm op ho
          have hfit : crcAt p v + cs.length ≤ (stored p v c m op).length := by
            rw [hcs, hsl]; exact info_inside p v hp .crc rfl
          refine ⟨by rw [store_length _ _ _ hfit, hsl, hm], fun i => ?_⟩
          by_cases hi : crcAt p v ≤ i ∧ i < crcAt p v + 2
          · exact .inl (get_at h1 i hi.1 hi.2)
          · right
            rw [store_get _ _ _ hfit]
            split
            · rfl
            · rw [if_neg (by omega)]
      left
      have hnear : Near (r.take (covered p v)) (m.take (covered p v)) := by
        obtain ⟨o, hn⟩ := hn
        refine ⟨o, fun i h1 h2 => ?_⟩
        by_cases hi : i < covered p v
        · rw [List.getElem?_take_of_lt hi, List.getElem?_take_of_lt hi]
          rcases hpart.2 i with h | h
          · exact h
          · rw [h, hn i h1 h2]
        · rw [List.getElem?_eq_none (by rw [List.length_take]; omega), List.getElem?_eq_none (by rw [List.length_take]; omega)]
      have htake : r.take (covered p v) = m.take (covered p v) := by
        refine Classical.byContradiction fun hne => ?_
        exact hd _ _ (by rw [List.length_take, List.length_take, hpart.1]) hne hnear hsum
      have : r = m := by
        apply List.ext_getElem?
        intro i
        by_cases hi : i < covered p v
        · have := congrArg (fun l => l[i]?) htake
          simpa [List.getElem?_take_of_lt hi] using this
        · rw [packed_apart p v hk] at hi
          rcases hpart.2 i with h | h
          · exact h
          · rw [h]; exact stored_tail p v c hp hk m hm op ho i (by omega)
      rw [this]
  · refine .inr (.inr ?_)
    unfold init at hok ⊢
    split
    · rename_i h; rw [if_pos h] at hok; exact absurd rfl hok
    · rfl

/-! ## The calls that change at most two neighbouring bytes -/

theorem be_small (n x : Nat) (hx : x < 256) : Spec.be (n + 1) x = Spec.be n 0 ++ [UInt8.ofNat x] := by
  rw [Spec.be, Nat.div_eq_of_lt hx]

theorem native_small (le : Bool) (n x y : Nat) (hx : x < 256) (hy : y < 256) (i : Nat) (hi : i ≠ if le then 0 else n - 1) :
    (native le n x)[i]? = (native le n y)[i]? := by
  cases n with
  | zero => cases le <;> rfl
  | succ n =>
    unfold native
    have hl : (Spec.be n 0).length = n := AppConv.be_length n 0
    cases le with
    | true =>
      simp only [if_true] at hi ⊢
      rw [be_small n x hx, be_small n y hy, List.reverse_append, List.reverse_append]
      cases i with
      | zero => exact absurd rfl hi
      | succ i => rfl
    | false =>
      simp only [Bool.false_eq_true, if_false, Nat.add_sub_cancel] at hi ⊢
      rw [be_small n x hx, be_small n y hy]
      by_cases h : i < n
      · rw [List.getElem?_append_left (by omega), List.getElem?_append_left (by omega)]
      · rw [List.getElem?_eq_none (by rw [List.length_append, hl, List.length_singleton]; omega),
          List.getElem?_eq_none (by rw [List.length_append, hl, List.length_singleton]; omega)]

/-- the baud rate, the user bytes; the mode or the reset reason if the old and the new value are below 256 -/
def Short (m : List Byte) : Op → Prop
  | .mode x => x < 256 ∧ ∃ y, y < 256 ∧ get p v m .mode p.enumSize = native p.le p.enumSize y
  | .reset x => x < 256 ∧ ∃ y, y < 256 ∧ get p v m .reset p.enumSize = native p.le p.enumSize y
  | .baud _ | .user1 _ | .user2 _ => True
  | _ => False

theorem near_store (m : List Byte) (o : Nat) (bs : List Byte) (h : o + bs.length ≤ m.length) (hb : bs.length ≤ 2) : Near m (store m o bs) := by
  refine ⟨o, fun i h1 h2 => ?_⟩
  rw [store_get _ _ _ h]
  split
  · rfl
  · rw [if_neg (by omega)]

theorem near_native (m : List Byte) (o : Nat) (le : Bool) (n x y : Nat) (hx : x < 256) (hy : y < 256) (h : o + n ≤ m.length)
    (hm : load m o n = native le n y) : Near m (store m o (native le n x)) := by
  refine ⟨o + (if le then 0 else n - 1), fun i h1 _ => ?_⟩
  rw [store_get _ _ _ (by rw [native_length]; exact h), native_length]
  split
  · rfl
  · split
    · rename_i h3 h4
      rw [native_small le n x y hx hy (i - o) (by split at h1 <;> simp_all <;> omega), ← hm, load_get, if_pos (by omega), show o + (i - o) = i by omega]
    · rfl

theorem short_near (hp : p.Ok) (m : List Byte) (hm : m.length = bytesOf (info p v)) (op : Op) (ho : op.ok p v) (hs : Short p v m op) :
    Near m (stored p v c m op) := by
  have fits : ∀ k : Member, has v k = true → offset (info p v) k + width p k ≤ m.length := fun k hk => by rw [hm]; exact info_inside p v hp k hk
  cases op with
  | mode x =>
    obtain ⟨hx, y, hy, hg⟩ := hs
    exact near_native m _ p.le p.enumSize x y hx hy (fits .mode rfl) hg
  | reset x =>
    obtain ⟨hx, y, hy, hg⟩ := hs
    exact near_native m _ p.le p.enumSize x y hx hy (fits .reset (by simp [has]; exact ho)) hg
  | comp bs => exact hs.elim
  | baud x => exact near_store m _ _ (by rw [native_length]; exact fits .baud rfl) (by rw [native_length]; omega)
  | user1 x => exact near_store m _ _ (fits .user1 (by simp [has]; exact ho)) (by simp)
  | user2 x => exact near_store m _ _ (fits .user2 (by simp [has]; exact ho)) (by simp)
  | clean => exact hs.elim
  | init => exact hs.elim

/-- **C143**, the setters of the mode, the reset reason, the baud rate and the user bytes: a reset in the middle is harmless, on every platform, with
every cyclic redundancy check of 16 bits. -/
theorem C143_setters (hp : p.Ok) (hk : p.packed = true) (hd : Detects c.init c.update) (m : List Byte) (hm : m.length = bytesOf (info p v))
    (hv : (init p v c m).2 = E.ok) (op : Op) (ho : op.ok p v) (hs : Short p v m op) (r : List Byte) (hr : Torn p v c m op r) :
    init p v c r = (m, E.ok) ∨ init p v c r = (step p v c m op, E.ok) ∨ (init p v c r).2 = E.infoBadCrc :=
  C143_partial p v c hp hk hd m hm hv op ho (short_near p v c hp m hm op ho hs) r hr

end torn

/-! ## Examples -/

/-- CRC-16 with the polynomial 0x1021 and the start value 0xFFFF -/
def ccitt : Sum := ⟨0xFFFF, crcOf 0x1021 msbFirst (BitVec.ofNat 16) BitVec.toNat⟩

theorem ccitt_detects : Detects ccitt.init ccitt.update :=
  C143_crc 0x1021 (by decide) msbFirst msbFirst_length msbFirst_inj _ _
    (fun s t h => BitVec.eq_of_toNat_eq (by rw [Nat.mod_eq_of_lt s.isLt, Nat.mod_eq_of_lt t.isLt] at h; exact h)) _

/-- a component: module 5, a name of nine bytes, checksum 0, number 7 -/
def exComp (name : List Byte) : List Byte := [5, 0] ++ name ++ [0, 0, 0, 0, 0, 7, 0, 0, 0, 0, 0, 0, 0, 0, 0, 0, 0]

def exFirm : List Byte := [70, 73, 82, 77, 87, 65, 82, 69, 0]
def exNext : List Byte := [71, 89, 115, 78, 87, 65, 82, 69, 0]
def exMix  : List Byte := [71, 89, 115, 77, 87, 65, 82, 69, 0]

/-- the info with the first component -/
def exOld : List Byte := step exPacked .user ccitt (List.replicate 38 0) (.comp (exComp exFirm))

/-- the memory when the reset comes after the first bytes of the next name -/
def exTorn : List Byte := put exPacked .user exOld .dload (exComp exMix)

example : exPacked.Ok ∧ exPacked.packed = true ∧ exOld.length = bytesOf (info exPacked .user) ∧ (init exPacked .user ccitt exOld).2 = E.ok :=
  ⟨⟨by decide, by decide, by decide⟩, rfl, by decide +kernel, by decide +kernel⟩
/-- a torn write of the baud rate that is rejected -/
example : Torn exPacked .user ccitt exOld (.baud 0x1FA) (put exPacked .user exOld .baud [0xFA, 0]) ∧ Short exPacked .user exOld (.baud 0x1FA) ∧
    (init exPacked .user ccitt (put exPacked .user exOld .baud [0xFA, 0])).2 = E.infoBadCrc := by
  refine ⟨.data _ ⟨by decide +kernel, fun i => ?_⟩, trivial, by decide +kernel⟩
  by_cases h : i < 38
  · revert i; decide +kernel
  · left
    rw [List.getElem?_eq_none (Nat.le_trans (by decide +kernel) (Nat.le_of_not_lt h)),
      List.getElem?_eq_none (Nat.le_trans (by decide +kernel) (Nat.le_of_not_lt h))]

/-- **C143**, counterexample: the component is replaced and a reset comes after its fifth byte.  With the usual CRC-16 the next start accepts the info
although the component in it is neither the old nor the new one. -/
theorem C143_counterexample :
    (init exPacked .user ccitt exOld).2 = E.ok ∧ Torn exPacked .user ccitt exOld (.comp (exComp exNext)) exTorn ∧
    init exPacked .user ccitt exTorn = (exTorn, E.ok) ∧
    get exPacked .user exTorn .dload 28 ≠ get exPacked .user exOld .dload 28 ∧
    get exPacked .user exTorn .dload 28 ≠ get exPacked .user (step exPacked .user ccitt exOld (.comp (exComp exNext))) .dload 28 := by
  refine ⟨by decide +kernel, .data _ ⟨by decide +kernel, fun i => ?_⟩, by decide +kernel, by decide +kernel, by decide +kernel⟩
  by_cases h : i < 38
  · revert i; decide +kernel
  · left
    rw [List.getElem?_eq_none (Nat.le_trans (by decide +kernel) (Nat.le_of_not_lt h)),
      List.getElem?_eq_none (Nat.le_trans (by decide +kernel) (Nat.le_of_not_lt h))]

end LiCan.InfoMem
