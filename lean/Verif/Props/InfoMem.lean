import Verif.Model.InfoMem
import Verif.Props.Conv
/-! # C117: the bytes of the transfer info and the checksum over them -/
namespace LiCan.Spec

/-- the bytes that a checksum is computed over end at or in front of the bytes it is stored in -/
def Apart (covered crcAt : Nat) : Prop := covered ≤ crcAt

/-- two bytes at `o` that differ make different sums of the first `n` bytes -/
def Separates (init : Nat) (sum : Nat → List Byte → Nat) (n o : Nat) : Prop :=
  ∀ (pre post a b : List Byte), pre.length = o → a.length = 2 → b.length = 2 →
    sum (init % 65536) ((pre ++ a ++ post).take n) % 65536 = sum (init % 65536) ((pre ++ b ++ post).take n) % 65536 →
    a = b

/-- CRC-16 with the polynomial 0x1021 -/
def crc16 (s : Nat) (bs : List Byte) : Nat :=
  bs.foldl (fun c b => (List.range 8).foldl
    (fun x _ => if 32768 ≤ x then (2 * x % 65536) ^^^ 0x1021 else 2 * x) (c ^^^ (b.toNat * 256))) (s % 65536)

end LiCan.Spec

namespace LiCan.InfoMem
open AppConv (native_length be_val be_length)
open Spec (native Apart Separates)

/-! ## Memory -/

theorem store_get (m : List Byte) (o : Nat) (bs : List Byte) (h : o + bs.length ≤ m.length) (i : Nat) :
    (store m o bs)[i]? = if i < o then m[i]? else if i < o + bs.length then bs[i - o]? else m[i]? := by
  unfold store
  have hl : (m.take o).length = o := by rw [List.length_take]; omega
  have hl2 : (m.take o ++ bs).length = o + bs.length := by rw [List.length_append, hl]
  by_cases h1 : i < o
  · rw [if_pos h1, List.getElem?_append_left (by omega), List.getElem?_append_left (by omega),
      List.getElem?_take_of_lt h1]
  · rw [if_neg h1]
    by_cases h2 : i < o + bs.length
    · rw [if_pos h2, List.getElem?_append_left (by omega), List.getElem?_append_right (by omega), hl]
    · rw [if_neg h2, List.getElem?_append_right (by omega), hl2, List.getElem?_drop]
      congr 1; omega

theorem store_length (m : List Byte) (o : Nat) (bs : List Byte) (h : o + bs.length ≤ m.length) :
    (store m o bs).length = m.length := by
  unfold store
  simp only [List.length_append, List.length_take, List.length_drop]; omega

theorem load_get (m : List Byte) (o n i : Nat) : (load m o n)[i]? = if i < n then m[o + i]? else none := by
  unfold load
  split
  · rename_i h; rw [List.getElem?_take_of_lt h, List.getElem?_drop]
  · rename_i h; rw [List.getElem?_eq_none]; rw [List.length_take]; omega

theorem load_same (m : List Byte) (o : Nat) (bs : List Byte) (h : o + bs.length ≤ m.length) :
    load (store m o bs) o bs.length = bs := by
  apply List.ext_getElem?
  intro i
  rw [load_get, store_get m o bs h]
  by_cases hi : i < bs.length
  · rw [if_pos hi, if_neg (by omega), if_pos (by omega)]; congr 1; omega
  · rw [if_neg hi, List.getElem?_eq_none (by omega)]

theorem load_other (m : List Byte) (o : Nat) (bs : List Byte) (h : o + bs.length ≤ m.length) (o' n : Nat)
    (ha : o' + n ≤ o ∨ o + bs.length ≤ o') : load (store m o bs) o' n = load m o' n := by
  apply List.ext_getElem?
  intro i
  rw [load_get, load_get]
  by_cases hi : i < n
  · rw [if_pos hi, if_pos hi, store_get m o bs h]
    rcases ha with ha | ha
    · rw [if_pos (by omega)]
    · rw [if_neg (by omega), if_neg (by omega)]
  · rw [if_neg hi, if_neg hi]

theorem take_store (m : List Byte) (o : Nat) (bs : List Byte) (h : o + bs.length ≤ m.length) (n : Nat) (hn : n ≤ o) :
    (store m o bs).take n = m.take n := by
  have := load_other m o bs h 0 n (Or.inl (by omega))
  simpa [load] using this

/-! ## Layout -/

theorem roundUp_ge (n a : Nat) (h : 0 < a) : n ≤ roundUp n a := by
  unfold roundUp
  have h1 := Nat.div_add_mod (n + a - 1) a
  have h2 := Nat.mod_lt (n + a - 1) h
  rw [Nat.mul_comm] at h1
  omega

theorem roundUp_one (n : Nat) : roundUp n 1 = n := by unfold roundUp; omega

/-- Alignments are positive. -/
def Aligned {α : Type} (l : List (Decl α)) : Prop := ∀ d ∈ l, 0 < d.2.2

variable {α : Type}

theorem foldl_max (l : List (Decl α)) : ∀ a, a ≤ l.foldl (fun a d => max a d.2.2) a := by
  induction l with
  | nil => intro a; exact Nat.le_refl _
  | cons x l ih => intro a; exact Nat.le_trans (Nat.le_max_left _ _) (ih _)

theorem alignOf_pos (l : List (Decl α)) : 0 < alignOf l := foldl_max l 1

variable [DecidableEq α]

/-- Where a member lies, from an address on. -/
def find (l : List (Decl α)) (o : Nat) (k : α) : Nat :=
  match (place l o).1.find? (fun x => x.1 = k) with
  | some x => x.2
  | none => 0

theorem find_zero (l : List (Decl α)) (k : α) : offset l k = find l 0 k := rfl

theorem find_head (d : Decl α) (l : List (Decl α)) (o : Nat) : find (d :: l) o d.1 = roundUp o d.2.2 := by
  simp [find, place]

theorem find_tail (d : Decl α) (l : List (Decl α)) (o : Nat) (k : α) (h : d.1 ≠ k) :
    find (d :: l) o k = find l (roundUp o d.2.2 + d.2.1) k := by
  simp [find, place, h]

theorem find_range (l : List (Decl α)) : ∀ o, Aligned l → (l.map (·.1)).Nodup → ∀ d ∈ l,
    o ≤ find l o d.1 ∧ find l o d.1 + d.2.1 ≤ (place l o).2 := by
  induction l with
  | nil => intro _ _ _ d hd; cases hd
  | cons x l ih =>
    intro o ha hn d hd
    have hx := roundUp_ge o x.2.2 (ha x (List.mem_cons_self ..))
    rw [List.map_cons, List.nodup_cons] at hn
    have hend : ∀ (l : List (Decl α)) o, Aligned l → o ≤ (place l o).2 := by
      intro l
      induction l with
      | nil => intro o _; exact Nat.le_refl _
      | cons y l ih2 =>
        intro o ha
        have h1 := roundUp_ge o y.2.2 (ha y (List.mem_cons_self ..))
        have h2 := ih2 (roundUp o y.2.2 + y.2.1) (fun d h => ha d (List.mem_cons_of_mem _ h))
        show o ≤ (place l (roundUp o y.2.2 + y.2.1)).2
        omega
    have hp : (place (x :: l) o).2 = (place l (roundUp o x.2.2 + x.2.1)).2 := rfl
    rw [hp]
    by_cases he : x.1 = d.1
    · have hdx : d = x := by
        rcases List.mem_cons.1 hd with h | h
        · exact h
        · exact absurd (List.mem_map_of_mem (f := (·.1)) h) (he ▸ hn.1)
      subst hdx
      rw [find_head]
      have := hend l (roundUp o d.2.2 + d.2.1) (fun e h => ha e (List.mem_cons_of_mem _ h))
      omega
    · have hd' : d ∈ l := by
        rcases List.mem_cons.1 hd with h | h
        · exact absurd (h ▸ rfl) he
        · exact h
      rw [find_tail _ _ _ _ he]
      have := ih (roundUp o x.2.2 + x.2.1) (fun e h => ha e (List.mem_cons_of_mem _ h)) hn.2 d hd'
      omega

theorem find_apart (l : List (Decl α)) : ∀ o, Aligned l → (l.map (·.1)).Nodup → ∀ d ∈ l, ∀ e ∈ l, d.1 ≠ e.1 →
    find l o d.1 + d.2.1 ≤ find l o e.1 ∨ find l o e.1 + e.2.1 ≤ find l o d.1 := by
  induction l with
  | nil => intro _ _ _ d hd; cases hd
  | cons x l ih =>
    intro o ha hn d hd e he hde
    rw [List.map_cons, List.nodup_cons] at hn
    have ha' : Aligned l := fun e h => ha e (List.mem_cons_of_mem _ h)
    have hmem : ∀ y ∈ l, x.1 ≠ y.1 := fun y hy h => hn.1 (h ▸ List.mem_map_of_mem (f := (·.1)) hy)
    rcases List.mem_cons.1 hd with hx | hd'
    · subst hx
      rcases List.mem_cons.1 he with hy | he'
      · subst hy; exact absurd rfl hde
      · rw [find_head, find_tail _ _ _ _ (hmem e he')]
        exact Or.inl (find_range l _ ha' hn.2 e he').1
    · rcases List.mem_cons.1 he with hy | he'
      · subst hy
        rw [find_head, find_tail _ _ _ _ (hmem d hd')]
        exact Or.inr (find_range l _ ha' hn.2 d hd').1
      · rw [find_tail _ _ _ _ (hmem d hd'), find_tail _ _ _ _ (hmem e he')]
        exact ih _ ha' hn.2 d hd' e he' hde

/-- Every member lies inside the structure. -/
theorem inside (l : List (Decl α)) (ha : Aligned l) (hn : (l.map (·.1)).Nodup) (d : Decl α) (hd : d ∈ l) :
    offset l d.1 + d.2.1 ≤ bytesOf l := by
  have h1 := (find_range l 0 ha hn d hd).2
  have h2 := roundUp_ge (place l 0).2 (alignOf l) (alignOf_pos l)
  rw [find_zero]; unfold bytesOf; omega

/-- Two members share no byte. -/
theorem apart (l : List (Decl α)) (ha : Aligned l) (hn : (l.map (·.1)).Nodup) (d e : Decl α) (hd : d ∈ l)
    (he : e ∈ l) (hde : d.1 ≠ e.1) :
    offset l d.1 + d.2.1 ≤ offset l e.1 ∨ offset l e.1 + e.2.1 ≤ offset l d.1 :=
  find_apart l 0 ha hn d hd e he hde

/-- The alignments of a platform are positive. -/
def Plat.Ok (p : Plat) : Prop := 0 < p.enumAlign ∧ 0 < p.align16 ∧ 0 < p.align32

theorem component_aligned (p : Plat) (h : p.Ok) : Aligned (component p) := by
  intro d hd
  simp only [component, List.mem_cons, List.not_mem_nil, or_false] at hd
  obtain ⟨_, h2, h3⟩ := h
  rcases hd with rfl | rfl | rfl | rfl | rfl | rfl <;> first | exact h2 | exact h3 | exact Nat.one_pos

theorem component_nodup (p : Plat) : ((component p).map (·.1)).Nodup := by
  simp [component]

theorem members_aligned (p : Plat) (v : Variant) (h : p.Ok) : Aligned (members p v) := by
  intro d hd
  obtain ⟨h1, h2, h3⟩ := h
  have h4 := alignOf_pos (component p)
  cases v <;>
    simp only [members, List.mem_cons, List.not_mem_nil, or_false, List.cons_append, List.nil_append] at hd <;>
    rcases hd with rfl | rfl | rfl | rfl | rfl | rfl | rfl | rfl <;>
    first | exact h1 | exact h2 | exact h3 | exact h4 | exact Nat.one_pos

theorem info_aligned (p : Plat) (v : Variant) (h : p.Ok) : Aligned (info p v) := by
  unfold info
  split
  · intro d hd
    obtain ⟨x, _, rfl⟩ := List.mem_map.1 hd
    exact Nat.one_pos
  · exact members_aligned p v h

theorem info_names (p : Plat) (v : Variant) : (info p v).map (·.1) = (members p v).map (·.1) := by
  unfold info
  split
  · rw [List.map_map]; rfl
  · rfl

theorem info_nodup (p : Plat) (v : Variant) : ((info p v).map (·.1)).Nodup := by
  rw [info_names]
  cases v <;> simp [members]

/-- The size of a member. -/
def width (p : Plat) : Member → Nat
  | .mode | .reset => p.enumSize
  | .dload => bytesOf (component p)
  | .baud | .crc => 2
  | .err => 8
  | _ => 1

/-- The members that a variant has. -/
def has (v : Variant) : Member → Bool
  | .mode | .dload | .baud | .crc => true
  | .reset | .err | .tmp1 | .tmp2 => v = .backward
  | .user1 | .user2 => v = .user

theorem info_mem (p : Plat) (v : Variant) (k : Member) (h : has v k = true) :
    ∃ d ∈ info p v, d.1 = k ∧ d.2.1 = width p k := by
  have hm : ∃ d ∈ members p v, d.1 = k ∧ d.2.1 = width p k := by
    cases v <;> cases k <;> first | (simp [has] at h; done) | simp [members, width]
  unfold info
  split
  · obtain ⟨d, hd, h1, h2⟩ := hm
    exact ⟨_, List.mem_map_of_mem (f := fun d : Decl Member => (d.1, d.2.1, 1)) hd, h1, h2⟩
  · exact hm

theorem info_inside (p : Plat) (v : Variant) (hp : p.Ok) (k : Member) (h : has v k = true) :
    offset (info p v) k + width p k ≤ bytesOf (info p v) := by
  obtain ⟨d, hd, h1, h2⟩ := info_mem p v k h
  have := inside (info p v) (info_aligned p v hp) (info_nodup p v) d hd
  rw [h1, h2] at this; exact this

theorem info_apart (p : Plat) (v : Variant) (hp : p.Ok) (k j : Member) (h : has v k = true) (h' : has v j = true)
    (hne : k ≠ j) : offset (info p v) k + width p k ≤ offset (info p v) j ∨
      offset (info p v) j + width p j ≤ offset (info p v) k := by
  obtain ⟨d, hd, h1, h2⟩ := info_mem p v k h
  obtain ⟨e, he, h3, h4⟩ := info_mem p v j h'
  have := apart (info p v) (info_aligned p v hp) (info_nodup p v) d e hd he (by rw [h1, h3]; exact hne)
  rw [h1, h2, h3, h4] at this; exact this

/-- The size of a member of the component. -/
def widthC : CMember → Nat
  | .nr | .crc => 2
  | .name => 9
  | .id => 4
  | .index => 1
  | .type => 5

theorem comp_inside (p : Plat) (hp : p.Ok) (k : CMember) :
    offset (component p) k + widthC k ≤ bytesOf (component p) := by
  have hm : ∃ d ∈ component p, d.1 = k ∧ d.2.1 = widthC k := by
    cases k <;> simp [component, widthC]
  obtain ⟨d, hd, h1, h2⟩ := hm
  have := inside (component p) (component_aligned p hp) (component_nodup p) d hd
  rw [h1, h2] at this; exact this

/-- In the packed structure the checksum covers exactly what lies in front of it. -/
theorem packed_apart (p : Plat) (v : Variant) (h : p.packed = true) : covered p v = crcAt p v := by
  cases v <;>
    simp [covered, crcAt, info, h, members, bytesOf, offset, place, alignOf, roundUp_one]

/-! ## Calls -/

section calls
variable (p : Plat) (v : Variant) (c : Sum)

theorem updateCrc_length (hp : p.Ok) (m : List Byte) (hm : m.length = bytesOf (info p v)) :
    (updateCrc p v c m).length = bytesOf (info p v) := by
  have hi := info_inside p v hp .crc rfl
  have hc : crcAt p v + 2 ≤ m.length := by rw [hm]; exact hi
  unfold updateCrc
  dsimp only
  have h1 : (store m (crcAt p v) (native p.le 2 c.init)).length = m.length :=
    store_length _ _ _ (by rw [native_length]; exact hc)
  rw [store_length _ _ _ (by rw [native_length, h1]; exact hc), h1, hm]

/-- The sum over the bytes with two bytes in the place of the checksum. -/
def sumWith (m bs : List Byte) : Nat := c.update (u16 c.init) ((store m (crcAt p v) bs).take (covered p v))

theorem store_store (m : List Byte) (o : Nat) (a b : List Byte) (hab : a.length = b.length)
    (h : o + a.length ≤ m.length) : store (store m o a) o b = store m o b := by
  apply List.ext_getElem?
  intro i
  rw [store_get _ _ _ (by rw [store_length _ _ _ h]; omega), store_get _ _ _ h, store_get _ _ _ (by omega)]
  by_cases h1 : i < o
  · simp only [h1, if_true]
  · by_cases h2 : i < o + b.length
    · simp only [h1, h2, if_true, if_false]
    · rw [if_neg h1, if_neg h2, if_neg h1, if_neg (by omega), if_neg h1, if_neg h2]

theorem updateCrc_eq (m : List Byte) (hm : crcAt p v + 2 ≤ m.length) :
    updateCrc p v c m = store m (crcAt p v) (native p.le 2 (sumWith p v c m (native p.le 2 c.init))) := by
  unfold updateCrc
  dsimp only
  rw [store_store _ _ _ _ (by simp only [native_length]) (by simp only [native_length]; omega)]
  rfl

theorem native_inj (le : Bool) (n a b : Nat) (h : native le n a = native le n b) : a % 256 ^ n = b % 256 ^ n := by
  have : Spec.be n a = Spec.be n b := by
    unfold native at h
    split at h
    · exact List.reverse_inj.1 h
    · exact h
  rw [← be_val, ← be_val, this]

theorem native_mod (le : Bool) (n : Nat) : ∀ a b, a % 256 ^ n = b % 256 ^ n → native le n a = native le n b := by
  have hb : ∀ n a b, a % 256 ^ n = b % 256 ^ n → Spec.be n a = Spec.be n b := by
    intro n
    induction n with
    | zero => intros; rfl
    | succ n ih =>
      intro a b h
      rw [Nat.pow_succ', Nat.mod_mul, Nat.mod_mul] at h
      have h1 : a % 256 = b % 256 := by omega
      have h2 : a / 256 % 256 ^ n = b / 256 % 256 ^ n := by omega
      rw [Spec.be, Spec.be, ih _ _ h2]
      have : UInt8.ofNat a = UInt8.ofNat b := by
        apply UInt8.toNat_inj.1
        simpa using h1
      rw [this]
  intro a b h
  unfold native
  rw [hb n a b h]

/-- The check accepts what the update leaves if and only if the sum with the stored sum in its place is the sum with
the start value in its place. -/
theorem check_update (m : List Byte) (hm : crcAt p v + 2 ≤ m.length) :
    checkCrc p v c (updateCrc p v c m) = true ↔
      sumWith p v c m (native p.le 2 (sumWith p v c m (native p.le 2 c.init))) % 65536 =
        sumWith p v c m (native p.le 2 c.init) % 65536 := by
  rw [updateCrc_eq p v c m hm]
  generalize hs : sumWith p v c m (native p.le 2 c.init) = s
  have hl := load_same m (crcAt p v) (native p.le 2 s) (by rw [native_length]; exact hm)
  rw [native_length] at hl
  unfold checkCrc
  rw [hl]
  simp only [decide_eq_true_eq]
  exact ⟨fun h => (native_inj p.le 2 _ _ h).symm, fun h => native_mod p.le 2 _ _ h.symm⟩

theorem check_apart (h : Apart (covered p v) (crcAt p v)) (m : List Byte) (hm : crcAt p v + 2 ≤ m.length) :
    checkCrc p v c (updateCrc p v c m) = true := by
  rw [check_update p v c m hm]
  have hw : ∀ s, sumWith p v c m (native p.le 2 s) = c.update (u16 c.init) (m.take (covered p v)) := by
    intro s
    unfold sumWith
    rw [take_store _ _ _ (by rw [native_length]; exact hm) _ h]
  rw [hw, hw]

theorem put_length (hp : p.Ok) (m : List Byte) (hm : m.length = bytesOf (info p v)) (k : Member)
    (hk : has v k = true) (bs : List Byte) (hb : bs.length = width p k) :
    (put p v m k bs).length = bytesOf (info p v) := by
  have := info_inside p v hp k hk
  unfold put
  rw [store_length _ _ _ (by omega), hm]

theorem putC_fits (hp : p.Ok) (m : List Byte) (hm : m.length = bytesOf (info p v)) (k : CMember)
    (bs : List Byte) (hb : bs.length ≤ widthC k) :
    offset (info p v) .dload + offset (component p) k + bs.length ≤ offset (info p v) .dload + width p .dload ∧
    offset (info p v) .dload + width p .dload ≤ m.length := by
  have h1 := info_inside p v hp .dload rfl
  have h2 := comp_inside p hp k
  rw [show width p .dload = bytesOf (component p) from rfl] at *
  omega

theorem putC_length (hp : p.Ok) (m : List Byte) (hm : m.length = bytesOf (info p v)) (k : CMember)
    (bs : List Byte) (hb : bs.length ≤ widthC k) : (putC p v m k bs).length = bytesOf (info p v) := by
  have := putC_fits p v hp m hm k bs hb
  unfold putC
  rw [store_length _ _ _ (by omega), hm]

theorem get_put (hp : p.Ok) (m : List Byte) (hm : m.length = bytesOf (info p v)) (k : Member)
    (hk : has v k = true) (bs : List Byte) (hb : bs.length = width p k) : get p v (put p v m k bs) k (width p k) = bs := by
  have := info_inside p v hp k hk
  unfold get put
  rw [← hb]
  exact load_same m _ bs (by omega)

theorem get_put_other (hp : p.Ok) (m : List Byte) (hm : m.length = bytesOf (info p v)) (k j : Member)
    (hk : has v k = true) (hj : has v j = true) (hne : k ≠ j) (bs : List Byte) (hb : bs.length = width p k) :
    get p v (put p v m k bs) j (width p j) = get p v m j (width p j) := by
  have h1 := info_inside p v hp k hk
  have h2 := info_apart p v hp k j hk hj hne
  unfold get put
  exact load_other m _ bs (by omega) _ _ (by omega)

theorem get_putC (hp : p.Ok) (m : List Byte) (hm : m.length = bytesOf (info p v)) (k : CMember) (j : Member)
    (hj : has v j = true) (hne : j ≠ .dload) (bs : List Byte) (hb : bs.length ≤ widthC k) :
    get p v (putC p v m k bs) j (width p j) = get p v m j (width p j) := by
  have h1 := putC_fits p v hp m hm k bs hb
  have h2 := info_apart p v hp .dload j rfl hj (fun h => hne h.symm)
  unfold get putC
  exact load_other m _ bs (by omega) _ _ (by omega)

theorem get_updateCrc (hp : p.Ok) (m : List Byte) (hm : m.length = bytesOf (info p v)) (j : Member)
    (hj : has v j = true) (hne : j ≠ .crc) :
    get p v (updateCrc p v c m) j (width p j) = get p v m j (width p j) := by
  have h1 := info_inside p v hp .crc rfl
  have h2 := info_apart p v hp .crc j rfl hj (fun h => hne h.symm)
  rw [show width p .crc = 2 from rfl] at *
  rw [updateCrc_eq p v c m (by rw [hm]; exact h1)]
  unfold get
  refine load_other m _ _ ?_ _ _ ?_ <;> rw [native_length]
  · rw [hm]; exact h1
  · unfold crcAt; omega

/-- `clean` up to its update of the checksum. -/
def wiped (m : List Byte) : List Byte :=
  let m := put p v m .mode (native p.le p.enumSize 4)
  let m := putC p v m .nr (native p.le 2 125)
  let m := putC p v m .name (List.replicate 8 0)
  let m := putC p v m .crc (native p.le 2 0)
  let m := putC p v m .id (native p.le 4 0)
  let m := putC p v m .index [0]
  let m := if v = .user then put p v (put p v m .user1 [0]) .user2 [0] else m
  putC p v m .type (List.replicate 5 0)

theorem clean_eq (m : List Byte) : clean p v c m = updateCrc p v c (wiped p v m) := rfl

/-- A member outside the component through a list of writes into the component. -/
theorem wiped_spec (hp : p.Ok) (m : List Byte) (hm : m.length = bytesOf (info p v)) :
    (wiped p v m).length = bytesOf (info p v) ∧
    get p v (wiped p v m) .mode (width p .mode) = native p.le p.enumSize 4 ∧
    ∀ j, has v j = true → j ≠ .mode → j ≠ .dload → j ≠ .user1 → j ≠ .user2 →
      get p v (wiped p v m) j (width p j) = get p v m j (width p j) := by
  unfold wiped
  dsimp only
  have l0 := put_length p v hp m hm .mode rfl (native p.le p.enumSize 4) (native_length ..)
  have g0 := get_put p v hp m hm .mode rfl (native p.le p.enumSize 4) (native_length ..)
  have o0 := fun j hj (hne : Member.mode ≠ j) =>
    get_put_other p v hp m hm .mode j rfl hj hne (native p.le p.enumSize 4) (native_length ..)
  generalize put p v m .mode (native p.le p.enumSize 4) = m0 at *
  have l1 := putC_length p v hp m0 l0 .nr (native p.le 2 125) (Nat.le_of_eq (native_length ..))
  have g1 := fun j hj hne => get_putC p v hp m0 l0 .nr j hj hne (native p.le 2 125) (Nat.le_of_eq (native_length ..))
  generalize putC p v m0 .nr (native p.le 2 125) = m1 at *
  have l2 := putC_length p v hp m1 l1 .name (List.replicate 8 0) (by simp [widthC])
  have g2 := fun j hj hne => get_putC p v hp m1 l1 .name j hj hne (List.replicate 8 0) (by simp [widthC])
  generalize putC p v m1 .name (List.replicate 8 0) = m2 at *
  have l3 := putC_length p v hp m2 l2 .crc (native p.le 2 0) (Nat.le_of_eq (native_length ..))
  have g3 := fun j hj hne => get_putC p v hp m2 l2 .crc j hj hne (native p.le 2 0) (Nat.le_of_eq (native_length ..))
  generalize putC p v m2 .crc (native p.le 2 0) = m3 at *
  have l4 := putC_length p v hp m3 l3 .id (native p.le 4 0) (Nat.le_of_eq (native_length ..))
  have g4 := fun j hj hne => get_putC p v hp m3 l3 .id j hj hne (native p.le 4 0) (Nat.le_of_eq (native_length ..))
  generalize putC p v m3 .id (native p.le 4 0) = m4 at *
  have l5 := putC_length p v hp m4 l4 .index [0] (Nat.le_refl _)
  have g5 := fun j hj hne => get_putC p v hp m4 l4 .index j hj hne [0] (Nat.le_refl _)
  generalize putC p v m4 .index [0] = m5 at *
  have l6 : (if v = .user then put p v (put p v m5 .user1 [0]) .user2 [0] else m5).length = bytesOf (info p v) := by
    split
    · rename_i hv
      have hu : has v .user1 = true ∧ has v .user2 = true := by subst hv; exact ⟨rfl, rfl⟩
      exact put_length p v hp _ (put_length p v hp m5 l5 .user1 hu.1 [0] rfl) .user2 hu.2 [0] rfl
    · exact l5
  have g6 : ∀ j, has v j = true → j ≠ .user1 → j ≠ .user2 →
      get p v (if v = .user then put p v (put p v m5 .user1 [0]) .user2 [0] else m5) j (width p j) =
        get p v m5 j (width p j) := by
    intro j hj h1 h2
    split
    · rename_i hv
      have hu : has v .user1 = true ∧ has v .user2 = true := by subst hv; exact ⟨rfl, rfl⟩
      rw [get_put_other p v hp _ (put_length p v hp m5 l5 .user1 hu.1 [0] rfl) .user2 j hu.2 hj (fun h => h2 h.symm)
          [0] rfl,
        get_put_other p v hp m5 l5 .user1 j hu.1 hj (fun h => h1 h.symm) [0] rfl]
    · rfl
  generalize (if v = .user then put p v (put p v m5 .user1 [0]) .user2 [0] else m5) = m6 at *
  have l7 := putC_length p v hp m6 l6 .type (List.replicate 5 0) (by simp [widthC])
  have g7 := fun j hj hne => get_putC p v hp m6 l6 .type j hj hne (List.replicate 5 0) (by simp [widthC])
  have hall : ∀ j, has v j = true → j ≠ .dload → j ≠ .user1 → j ≠ .user2 →
      get p v (putC p v m6 .type (List.replicate 5 0)) j (width p j) = get p v m0 j (width p j) := by
    intro j hj hd h1 h2
    rw [g7 j hj hd, g6 j hj h1 h2, g5 j hj hd, g4 j hj hd, g3 j hj hd, g2 j hj hd, g1 j hj hd]
  refine ⟨l7, ?_, ?_⟩
  · rw [hall .mode rfl (by decide) (by decide) (by decide), g0]
  · intro j hj hm hd h1 h2
    rw [hall j hj hd h1 h2, o0 j hj (fun h => hm h.symm)]

/-- The write of one call before its update of the checksum. -/
def written (m : List Byte) : Op → List Byte
  | .mode x => put p v m .mode (native p.le p.enumSize x)
  | .reset x => put p v m .reset (native p.le p.enumSize x)
  | .comp bs => put p v m .dload bs
  | .baud x => put p v m .baud (native p.le 2 x)
  | .user1 x => put p v m .user1 [x]
  | .user2 x => put p v m .user2 [x]
  | .clean | .init => wiped p v m

theorem step_eq (m : List Byte) (op : Op) :
    step p v c m op = updateCrc p v c (written p v m op) ∨ step p v c m op = m ∧ checkCrc p v c m = true := by
  cases op with
  | init =>
    show (init p v c m).1 = _ ∨ (init p v c m).1 = m ∧ _
    unfold init
    split
    · rename_i h; exact Or.inr ⟨rfl, h⟩
    · exact Or.inl rfl
  | _ => exact Or.inl rfl

theorem written_length (hp : p.Ok) (m : List Byte) (hm : m.length = bytesOf (info p v)) (op : Op) (ho : op.ok p v) :
    (written p v m op).length = bytesOf (info p v) := by
  cases op with
  | mode x => exact put_length p v hp m hm .mode rfl _ (native_length ..)
  | reset x => exact put_length p v hp m hm .reset (by simp [has]; exact ho) _ (native_length ..)
  | comp bs => exact put_length p v hp m hm .dload rfl _ ho
  | baud x => exact put_length p v hp m hm .baud rfl _ (native_length ..)
  | user1 x => exact put_length p v hp m hm .user1 (by simp [has]; exact ho) _ rfl
  | user2 x => exact put_length p v hp m hm .user2 (by simp [has]; exact ho) _ rfl
  | clean => exact (wiped_spec p v hp m hm).1
  | init => exact (wiped_spec p v hp m hm).1

theorem step_length (hp : p.Ok) (m : List Byte) (hm : m.length = bytesOf (info p v)) (op : Op) (ho : op.ok p v) :
    (step p v c m op).length = bytesOf (info p v) := by
  rcases step_eq p v c m op with h | h
  · rw [h]; exact updateCrc_length p v c hp _ (written_length p v hp m hm op ho)
  · rw [h.1]; exact hm

end calls

/-! ## Theorems -/

/-- Every call leaves an info that the next start accepts unchanged, whatever the memory held before, when the bytes
the checksum is computed over do not reach the checksum. -/
theorem valid_of_apart (p : Plat) (v : Variant) (c : Sum) (hp : p.Ok) (ha : Apart (covered p v) (crcAt p v))
    (m : List Byte) (hm : m.length = bytesOf (info p v)) (l : List Op) (hl : ∀ op ∈ l, op.ok p v) (hne : l ≠ []) :
    init p v c (run p v c m l) = (run p v c m l, E.ok) := by
  have key : ∀ (l : List Op) (m : List Byte), m.length = bytesOf (info p v) → (∀ op ∈ l, op.ok p v) →
      (l ≠ [] ∨ checkCrc p v c m = true) → checkCrc p v c (run p v c m l) = true := by
    intro l
    induction l with
    | nil => intro m _ _ h; exact h.resolve_left (fun h => h rfl)
    | cons op l ih =>
      intro m hm hl _
      have ho := hl op (List.mem_cons_self ..)
      have hs : checkCrc p v c (step p v c m op) = true := by
        rcases step_eq p v c m op with h | h
        · rw [h]
          refine check_apart p v c ha _ ?_
          rw [written_length p v hp m hm op ho]
          exact info_inside p v hp .crc rfl
        · rw [h.1]; exact h.2
      exact ih _ (step_length p v c hp m hm op ho) (fun o h => hl o (List.mem_cons_of_mem _ h)) (Or.inr hs)
  unfold init
  rw [if_pos (key l m hm hl (Or.inl hne))]

/-- **C117.** With the structure packed (GCC, IAR), in all its three variants, on every platform and with every
checksum: whatever the memory held and whatever calls were made, the next start accepts the info and changes no byte
of it. -/
theorem C117_valid (p : Plat) (v : Variant) (c : Sum) (hp : p.Ok) (hk : p.packed = true)
    (m : List Byte) (hm : m.length = bytesOf (info p v)) (l : List Op) (hl : ∀ op ∈ l, op.ok p v) (hne : l ≠ []) :
    init p v c (run p v c m l) = (run p v c m l, E.ok) :=
  valid_of_apart p v c hp (Nat.le_of_eq (packed_apart p v hk)) m hm l hl hne

/-- The same for a structure that is not packed, as long as the compiler adds no bytes behind its last member. -/
theorem C117_valid_natural (p : Plat) (v : Variant) (c : Sum) (hp : p.Ok)
    (ha : Apart (covered p v) (crcAt p v))
    (m : List Byte) (hm : m.length = bytesOf (info p v)) (l : List Op) (hl : ∀ op ∈ l, op.ok p v) (hne : l ≠ []) :
    init p v c (run p v c m l) = (run p v c m l, E.ok) :=
  valid_of_apart p v c hp ha m hm l hl hne

/-- The member a setter writes and the bytes it holds afterwards. -/
def target (p : Plat) : Op → Option (Member × List Byte)
  | .mode x => some (.mode, native p.le p.enumSize x)
  | .reset x => some (.reset, native p.le p.enumSize x)
  | .comp bs => some (.dload, bs)
  | .baud x => some (.baud, native p.le 2 x)
  | .user1 x => some (.user1, [x])
  | .user2 x => some (.user2, [x])
  | _ => none

/-- **C117.** A setter writes its member and no other, in every layout: the getter of the member returns the bytes,
the other getters return what they returned (packed or not, however large the checksum's reach). -/
theorem C117_members (p : Plat) (v : Variant) (c : Sum) (hp : p.Ok) (m : List Byte)
    (hm : m.length = bytesOf (info p v)) (op : Op) (ho : op.ok p v) (k : Member) (bs : List Byte)
    (ht : target p op = some (k, bs)) :
    get p v (step p v c m op) k (width p k) = bs ∧
    ∀ j, has v j = true → j ≠ k → j ≠ .crc → get p v (step p v c m op) j (width p j) = get p v m j (width p j) := by
  have main : ∀ (k : Member) (bs : List Byte), has v k = true → k ≠ .crc → bs.length = width p k →
      get p v (updateCrc p v c (put p v m k bs)) k (width p k) = bs ∧
      ∀ j, has v j = true → j ≠ k → j ≠ .crc →
        get p v (updateCrc p v c (put p v m k bs)) j (width p j) = get p v m j (width p j) := by
    intro k bs hk hc hb
    have hl := put_length p v hp m hm k hk bs hb
    refine ⟨?_, ?_⟩
    · rw [get_updateCrc p v c hp _ hl k hk hc, get_put p v hp m hm k hk bs hb]
    · intro j hj hjk hjc
      rw [get_updateCrc p v c hp _ hl j hj hjc, get_put_other p v hp m hm k j hk hj (fun h => hjk h.symm) bs hb]
  cases op with
  | mode x =>
    injection ht with ht; injection ht with h1 h2; subst h1; subst h2
    exact main .mode _ rfl (by decide) (native_length ..)
  | reset x =>
    injection ht with ht; injection ht with h1 h2; subst h1; subst h2
    exact main .reset _ (by simp [has]; exact ho) (by decide) (native_length ..)
  | comp b =>
    injection ht with ht; injection ht with h1 h2; subst h1; subst h2
    exact main .dload _ rfl (by decide) ho
  | baud x =>
    injection ht with ht; injection ht with h1 h2; subst h1; subst h2
    exact main .baud _ rfl (by decide) (native_length ..)
  | user1 x =>
    injection ht with ht; injection ht with h1 h2; subst h1; subst h2
    exact main .user1 _ (by simp [has]; exact ho) (by decide) rfl
  | user2 x =>
    injection ht with ht; injection ht with h1 h2; subst h1; subst h2
    exact main .user2 _ (by simp [has]; exact ho) (by decide) rfl
  | clean => simp [target] at ht
  | init => simp [target] at ht

/-- **C117.** An info that the start rejects is replaced by mode 4 (running); the baud rate, the reset reason and the
errors keep the bytes that were in the memory although the checksum did not vouch for them. -/
theorem C117_rejected (p : Plat) (v : Variant) (c : Sum) (hp : p.Ok) (m : List Byte)
    (hm : m.length = bytesOf (info p v)) (hr : (init p v c m).2 ≠ E.ok) :
    (init p v c m).2 = E.infoBadCrc ∧
    get p v (init p v c m).1 .mode (width p .mode) = native p.le p.enumSize 4 ∧
    ∀ j, has v j = true → j = .baud ∨ j = .reset ∨ j = .err →
      get p v (init p v c m).1 j (width p j) = get p v m j (width p j) := by
  unfold init at *
  split at hr
  · exact absurd rfl hr
  · rename_i h
    simp only [h, if_false, Bool.false_eq_true]
    obtain ⟨h1, h2, h3⟩ := wiped_spec p v hp m hm
    refine ⟨trivial, ?_, ?_⟩
    · rw [clean_eq, get_updateCrc p v c hp _ h1 .mode rfl (by decide), h2]
    · intro j hj hk
      rw [clean_eq, get_updateCrc p v c hp _ h1 j hj (by rintro rfl; simp at hk)]
      apply h3 j hj <;> (rintro rfl; simp at hk)

/-- **C117, exact.** When the bytes the checksum is computed over include the checksum (padding behind the last
member of a structure that is not packed), and the checksum is one that tells the contents of two bytes apart, then
an info just written is accepted by the next start only if its sum happens to be the start value. -/
theorem C117_self (p : Plat) (v : Variant) (c : Sum) (hp : p.Ok)
    (hs : Separates c.init c.update (covered p v) (crcAt p v)) (m : List Byte)
    (hm : m.length = bytesOf (info p v)) (op : Op) (ho : op.ok p v) (k : Member × List Byte)
    (ht : target p op = some k) :
    (init p v c (step p v c m op)).2 = E.ok ↔
      load (step p v c m op) (crcAt p v) 2 = native p.le 2 c.init := by
  have hst : step p v c m op = updateCrc p v c (written p v m op) := by
    cases op <;> first | rfl | simp [target] at ht
  have hwl := written_length p v hp m hm op ho
  rw [hst]
  generalize written p v m op = w at *
  have hi := info_inside p v hp .crc rfl
  have hw : crcAt p v + 2 ≤ w.length := by rw [hwl]; exact hi
  have hinit : (init p v c (updateCrc p v c w)).2 = E.ok ↔ checkCrc p v c (updateCrc p v c w) = true := by
    unfold init
    split
    · rename_i h; simp only [h, iff_true]
    · rename_i h; simp only [h]; decide
  rw [hinit, check_update p v c w hw, updateCrc_eq p v c w hw]
  have hl := load_same w (crcAt p v) (native p.le 2 (sumWith p v c w (native p.le 2 c.init)))
    (by rw [native_length]; exact hw)
  rw [native_length] at hl
  rw [hl]
  constructor
  · intro h
    have := hs (w.take (crcAt p v)) (w.drop (crcAt p v + 2)) (native p.le 2 (sumWith p v c w (native p.le 2 c.init)))
      (native p.le 2 c.init) (by rw [List.length_take]; omega) (native_length ..) (native_length ..)
    apply this
    unfold sumWith store at h
    simp only [native_length] at h
    unfold sumWith store
    simp only [native_length]
    exact h
  · intro h
    rw [h]

/-- A 32-bit platform whose compiler is neither GCC nor IAR. -/
def exNatural : Plat := { enumSize := 4, enumAlign := 4, align16 := 2, align32 := 4, le := true, packed := false }

/-- The same platform with GCC. -/
def exPacked : Plat := { exNatural with packed := true }

/-- CRC-16 with the start value 0xffff. -/
def exSum : Sum := ⟨0xffff, Spec.crc16⟩

/-- **C117, counterexample.** On a 32-bit platform whose compiler does not pack the structure, with the user bytes:
the structure is 40 bytes long, the checksum lies at 36 and is computed over 38 bytes, itself included. The mode
`DOWNLOAD_INN` written by an accepted software-update request is gone at the next start: the info is rejected and the
mode reads `DOWNLOAD_RUNNING`. -/
theorem C117_counterexample :
    let m := run exNatural .user exSum (List.replicate 40 0) [.clean, .mode 1]
    crcAt exNatural .user = 36 ∧ covered exNatural .user = 38 ∧
    get exNatural .user m .mode 4 = [1, 0, 0, 0] ∧
    (init exNatural .user exSum m).2 = E.infoBadCrc ∧
    get exNatural .user (init exNatural .user exSum m).1 .mode 4 = [4, 0, 0, 0] := by
  decide +kernel

/-! ## Cases -/

-- C117_valid: the same calls with the structure packed: accepted, the mode kept
example : init exPacked .user exSum (run exPacked .user exSum (List.replicate 38 7) [.clean, .mode 1]) =
    (run exPacked .user exSum (List.replicate 38 7) [.clean, .mode 1], E.ok) :=
  C117_valid exPacked .user exSum ⟨by decide, by decide, by decide⟩ rfl _ (by decide +kernel) _
    (by intro op h; simp only [List.mem_cons, List.not_mem_nil, or_false] at h; rcases h with rfl | rfl <;> trivial)
    (by decide)
example : get exPacked .user (run exPacked .user exSum (List.replicate 38 7) [.clean, .mode 1]) .mode 4 =
    [1, 0, 0, 0] := by decide +kernel

-- C117_valid_natural: without the user bytes the natural layout of the same platform has no padding at the end
example : Apart (covered exNatural .plain) (crcAt exNatural .plain) ∧
    Apart (covered exNatural .backward) (crcAt exNatural .backward) ∧
    ¬ Apart (covered exNatural .user) (crcAt exNatural .user) := by
  unfold Apart; decide +kernel

-- C117_members: the baud rate on a big-endian platform
example : get { exPacked with le := false } .plain
    (step { exPacked with le := false } .plain exSum (List.replicate 36 0) (.baud 500)) .baud 2 = [1, 244] := by
  decide +kernel

-- C117_rejected: a memory after power-up
example : (init exPacked .backward exSum (List.replicate 50 7)).2 = E.infoBadCrc ∧
    get exPacked .backward (init exPacked .backward exSum (List.replicate 50 7)).1 .mode 4 = [4, 0, 0, 0] ∧
    get exPacked .backward (init exPacked .backward exSum (List.replicate 50 7)).1 .baud 2 = [7, 7] := by
  decide +kernel

/-- A checksum that depends on the last two bytes only. -/
def exTail : Sum := ⟨0, fun s bs => bs.foldl (fun a b => 256 * a + b.toNat) s + 1⟩

-- C117_self: its hypothesis holds of `exTail` in the layout of the counterexample, and the info is rejected
example : Separates exTail.init exTail.update (covered exNatural .user) (crcAt exNatural .user) := by
  rw [show covered exNatural .user = 38 by decide +kernel, show crcAt exNatural .user = 36 by decide +kernel]
  intro pre post a b hp ha hb h
  have ht : ∀ a : List Byte, a.length = 2 → (pre ++ a ++ post).take 38 = pre ++ a := by
    intro a ha
    rw [List.take_append_of_le_length (by rw [List.length_append]; omega), List.take_of_length_le]
    rw [List.length_append]; omega
  rw [ht a ha, ht b hb] at h
  obtain ⟨a0, a1, rfl⟩ : ∃ x y, a = [x, y] := by
    match a, ha with | [x, y], _ => exact ⟨x, y, rfl⟩
  obtain ⟨b0, b1, rfl⟩ : ∃ x y, b = [x, y] := by
    match b, hb with | [x, y], _ => exact ⟨x, y, rfl⟩
  simp only [exTail, List.foldl_append, List.foldl_cons, List.foldl_nil] at h
  have h1 := a0.toNat_lt
  have h2 := a1.toNat_lt
  have h3 := b0.toNat_lt
  have h4 := b1.toNat_lt
  have e0 : a0.toNat = b0.toNat := by omega
  have e1 : a1.toNat = b1.toNat := by omega
  rw [UInt8.toNat_inj.1 e0, UInt8.toNat_inj.1 e1]
example : (init exNatural .user exTail (step exNatural .user exTail (List.replicate 40 0) (.baud 500))).2 =
    E.infoBadCrc := by decide +kernel

end LiCan.InfoMem
