import Verif.Lemmas.Cpu2
import Verif.Lemmas.NodeHw
/-! # Which message object of the monitor CPU receives what -/
namespace LiCan
namespace Cpu2
open Node

/-- what a successful `CpCoreBufferConfig` leaves -/
def defHw (hw : Hw) (o : Nat) (d : ObjDef) : Hw :=
  { hw with
    used := upd hw.used o true, cfgN := hw.cfgN + 1, defs := upd hw.defs o (some d)
    isrRx := if d.svc = .rx true then hw.isrRx ||| bit o else hw.isrRx
    ctrlMask := if d.svc = .asyncCtrlRx then hw.ctrlMask ||| bit o else hw.ctrlMask }

theorem define_hw {env : Env} (hh : ∀ k, env.hwOk k = true) (n : Node) {o : Nat} (ho : o < env.nObj) (d : ObjDef) :
    define env n o d = ({ n with hw := defHw n.hw o d }, E.ok) := by
  unfold define
  rw [if_neg (by omega), if_pos (hh _)]
  rfl

/-- the filter of the object lets no synchronous data identifier through -/
def NotData (d : ObjDef) : Prop :=
  ∀ id, 0x200 ≤ id → id < 0x600 → hwAccepts (BitVec.ofNat 16 d.id) d.mask (BitVec.ofNat 16 id) = false

/-- Message objects, slots and the ports of the modules: `lim b tp` ports of kind `b` of row `tp`, port `i` in message
object `ob b tp i` programmed with `df b tp i`. -/
structure Wires (env : Env) (hw : Hw) (slots : List (Nat × Nat)) (lim : Bool → Nat → Nat)
    (ob : Bool → Nat → Nat → Nat) (df : Bool → Nat → Nat → ObjDef) : Prop where
  port  : ∀ b tp i, i < lim b tp → (ob b tp i, tp) ∈ slots ∧ hw.defs (ob b tp i) = some (df b tp i)
  slot  : ∀ o tp, (o, tp) ∈ slots → ∃ b i, i < lim b tp ∧ ob b tp i = o
  nodup : (slots.map (·.1)).Nodup
  inj   : ∀ tp b i b' j, i < lim b tp → j < lim b' tp → ob b tp i = ob b' tp j → b = b' ∧ i = j
  ok    : ∀ p ∈ slots, p.1 < env.nObj ∧ hw.used p.1 = true ∧ hw.isrRx.getLsbD p.1 = true ∧ ¬ Fixed env p.1
  res   : ∀ o, Fixed env o → hw.used o = true
  sync  : ∀ o d, hw.defs o = some d → d.svc = .rx true → ∃ tp, (o, tp) ∈ slots
  other : ∀ o d, hw.defs o = some d → d.svc ≠ .rx true → NotData d

namespace Wires
variable {env : Env} {hw : Hw} {slots : List (Nat × Nat)} {lim : Bool → Nat → Nat}
  {ob : Bool → Nat → Nat → Nat} {df : Bool → Nat → Nat → ObjDef}

theorem congr (h : Wires env hw slots lim ob df) {lim' : Bool → Nat → Nat} {ob' : Bool → Nat → Nat → Nat}
    {df' : Bool → Nat → Nat → ObjDef} (hl : ∀ b tp, lim' b tp = lim b tp)
    (ho : ∀ b tp i, i < lim b tp → ob' b tp i = ob b tp i) (hd : ∀ b tp i, i < lim b tp → df' b tp i = df b tp i) :
    Wires env hw slots lim' ob' df' := by
  have hl : lim' = lim := by funext b tp; exact hl b tp
  subst hl
  refine ⟨fun b tp i hi => ?_, fun o tp hs => ?_, h.nodup, fun tp b i b' j hi hj e => ?_, h.ok, h.res, h.sync, h.other⟩
  · rw [ho _ _ _ hi, hd _ _ _ hi]; exact h.port b tp i hi
  · obtain ⟨b, i, hi, e⟩ := h.slot o tp hs
    exact ⟨b, i, hi, (ho _ _ _ hi).trans e⟩
  · rw [ho _ _ _ hi, ho _ _ _ hj] at e
    exact h.inj tp b i b' j hi hj e

/-- two slots with the same message object are the same -/
theorem slot_inj (h : Wires env hw slots lim ob df) {o tp tp' : Nat} (h1 : (o, tp) ∈ slots) (h2 : (o, tp') ∈ slots) :
    tp = tp' := by
  have := h.nodup
  clear h
  induction slots with
  | nil => cases h1
  | cons s ss ih =>
    simp only [List.map_cons, List.nodup_cons] at this
    rcases List.mem_cons.1 h1 with e1 | e1 <;> rcases List.mem_cons.1 h2 with e2 | e2
    · rw [← e1] at e2; exact (congrArg Prod.snd e2).symm
    · exact absurd (List.mem_map.2 ⟨_, e2, by rw [← e1]⟩) this.1
    · exact absurd (List.mem_map.2 ⟨_, e1, by rw [← e2]⟩) this.1
    · exact ih e1 e2 this.2

theorem get_or (hn : env.nObj ≤ 32) {o p : Nat} (ho : o < env.nObj) (x : BitVec 32) (h : x.getLsbD p = true ∨ p = o) :
    (x ||| bit o).getLsbD p = true := by
  rw [BitVec.getLsbD_or, bit_get _ _ (by omega)]
  rcases h with h | h <;> simp [h]

/-- a new port -/
theorem new (h : Wires env hw slots lim ob df) (hn : env.nObj ≤ 32) {o tp : Nat} {b : Bool} {d : ObjDef}
    (ho : o < env.nObj) (hu : hw.used o = false) (hd : d.svc = .rx true)
    {ob' : Bool → Nat → Nat → Nat} {df' : Bool → Nat → Nat → ObjDef}
    (e1 : ∀ b tp i, i < lim b tp → ob' b tp i = ob b tp i) (e2 : ∀ b tp i, i < lim b tp → df' b tp i = df b tp i)
    (e3 : ob' b tp (lim b tp) = o) (e4 : df' b tp (lim b tp) = d) :
    Wires env (defHw hw o d) (slots ++ [(o, tp)])
      (fun b' t => if b' = b ∧ t = tp then lim b tp + 1 else lim b' t) ob' df' := by
  have hfree : ∀ t, (o, t) ∉ slots := fun t ht => by
    have := (h.ok _ ht).2.1; rw [hu] at this; cases this
  have hlt : ∀ b' t i, i < (if b' = b ∧ t = tp then lim b tp + 1 else lim b' t) →
      i < lim b' t ∨ (b' = b ∧ t = tp ∧ i = lim b tp) := by
    intro b' t i hi
    split at hi
    · next c =>
      obtain ⟨rfl, rfl⟩ := c
      rcases Nat.lt_or_ge i (lim b' t) with c | c
      · exact .inl c
      · exact .inr ⟨rfl, rfl, by omega⟩
    · exact .inl hi
  have hge : ∀ b' t i, i < lim b' t → i < (if b' = b ∧ t = tp then lim b tp + 1 else lim b' t) := by
    intro b' t i hi
    split
    · next c => obtain ⟨rfl, rfl⟩ := c; omega
    · exact hi
  have hnew : lim b tp < (if b = b ∧ tp = tp then lim b tp + 1 else lim b tp) := by simp
  have hmem : ∀ b' t i, i < lim b' t → ob b' t i ≠ o := fun b' t i hi e =>
    hfree t (e ▸ (h.port b' t i hi).1)
  refine ⟨fun b' t i hi => ?_, fun p t hs => ?_, ?_, fun t b1 i b2 j hi hj e => ?_, fun p hp => ?_, fun p hp => ?_,
    fun p d' hp hs => ?_, fun p d' hp hs => ?_⟩
  · rcases hlt b' t i hi with c | ⟨rfl, rfl, rfl⟩
    · rw [e1 _ _ _ c, e2 _ _ _ c]
      refine ⟨List.mem_append.2 (.inl (h.port b' t i c).1), ?_⟩
      show upd hw.defs o (some d) (ob b' t i) = _
      rw [upd_other _ _ (hmem _ _ _ c)]
      exact (h.port b' t i c).2
    · rw [e3, e4]
      refine ⟨List.mem_append.2 (.inr (List.mem_singleton.2 rfl)), ?_⟩
      show upd hw.defs o (some d) o = _
      rw [upd_same]
  · rcases List.mem_append.1 hs with c | c
    · obtain ⟨b', i, hi, e⟩ := h.slot p t c
      exact ⟨b', i, hge _ _ _ hi, (e1 _ _ _ hi).trans e⟩
    · have c := List.mem_singleton.1 c
      obtain ⟨rfl, rfl⟩ := Prod.mk.inj c
      exact ⟨b, lim b t, hnew, e3⟩
  · rw [List.map_append, List.nodup_append]
    refine ⟨h.nodup, by simp, fun x hx y hy e => ?_⟩
    obtain ⟨⟨x', t⟩, hx', rfl⟩ := List.mem_map.1 hx
    have : y = o := by simpa using hy
    subst this
    exact hfree t (by rw [← e]; exact hx')
  · rcases hlt b1 t i hi with c | ⟨rfl, rfl, rfl⟩ <;> rcases hlt b2 t j hj with c' | ⟨e1', e2', e3'⟩
    · rw [e1 _ _ _ c, e1 _ _ _ c'] at e; exact h.inj _ _ _ _ _ c c' e
    · subst e1'; subst e2'; subst e3'
      rw [e1 _ _ _ c, e3] at e; exact absurd e (hmem _ _ _ c)
    · rw [e1 _ _ _ c', e3] at e; exact absurd e.symm (hmem _ _ _ c')
    · subst e1'; subst e3'; exact ⟨rfl, rfl⟩
  · have hi : (defHw hw o d).isrRx = hw.isrRx ||| bit o := by simp [defHw, hd]
    rw [hi]
    show _ ∧ upd hw.used o true p.1 = true ∧ _
    rcases List.mem_append.1 hp with c | c
    · have k := h.ok p c
      refine ⟨k.1, ?_, get_or hn ho _ (.inl k.2.2.1), k.2.2.2⟩
      rw [upd_other _ _ (fun e : p.1 = o => hfree p.2 (e ▸ c))]; exact k.2.1
    · have c := List.mem_singleton.1 c
      subst c
      refine ⟨ho, by simp, get_or hn ho _ (.inr rfl), fun k => ?_⟩
      have := h.res _ k; rw [hu] at this; cases this
  · show upd hw.used o true p = true
    by_cases e : p = o
    · subst e; simp
    · rw [upd_other _ _ e]; exact h.res p hp
  · have hp : upd hw.defs o (some d) p = some d' := hp
    by_cases e : p = o
    · exact ⟨tp, List.mem_append.2 (.inr (by rw [e]; exact List.mem_singleton.2 rfl))⟩
    · rw [upd_other _ _ e] at hp
      obtain ⟨t, ht⟩ := h.sync p d' hp hs
      exact ⟨t, List.mem_append.2 (.inl ht)⟩
  · have hp : upd hw.defs o (some d) p = some d' := hp
    by_cases e : p = o
    · subst e; rw [upd_same] at hp; cases hp; exact absurd hd hs
    · rw [upd_other _ _ e] at hp; exact h.other p d' hp hs

/-- a port is programmed again -/
theorem redef (h : Wires env hw slots lim ob df) (hn : env.nObj ≤ 32) {tp i : Nat} {b : Bool} {d : ObjDef}
    (hi : i < lim b tp) (hd : d.svc = .rx true) {df' : Bool → Nat → Nat → ObjDef}
    (e1 : df' b tp i = d) (e2 : ∀ b' t j, j < lim b' t → ¬ (b' = b ∧ t = tp ∧ j = i) → df' b' t j = df b' t j) :
    Wires env (defHw hw (ob b tp i) d) slots lim ob df' := by
  have hs := (h.port b tp i hi).1
  have ho := h.ok _ hs
  refine ⟨fun b' t j hj => ⟨(h.port b' t j hj).1, ?_⟩, h.slot, h.nodup, h.inj, fun p hp => ?_, fun p hp => ?_,
    fun p d' hp hq => ?_, fun p d' hp hq => ?_⟩
  · show upd hw.defs (ob b tp i) (some d) (ob b' t j) = _
    by_cases e : ob b' t j = ob b tp i
    · have et : t = tp := h.slot_inj (e ▸ (h.port b' t j hj).1) hs
      subst et
      obtain ⟨rfl, rfl⟩ := h.inj t b' j b i hj hi e
      rw [upd_same, e1]
    · rw [upd_other _ _ e, (h.port b' t j hj).2, e2 _ _ _ hj]
      rintro ⟨rfl, rfl, rfl⟩; exact e rfl
  · have hi' : (defHw hw (ob b tp i) d).isrRx = hw.isrRx ||| bit (ob b tp i) := by simp [defHw, hd]
    rw [hi']
    have k := h.ok p hp
    refine ⟨k.1, ?_, get_or hn ho.1 _ (.inl k.2.2.1), k.2.2.2⟩
    show upd hw.used (ob b tp i) true p.1 = true
    by_cases e : p.1 = ob b tp i
    · rw [e, upd_same]
    · rw [upd_other _ _ e]; exact k.2.1
  · show upd hw.used (ob b tp i) true p = true
    by_cases e : p = ob b tp i
    · rw [e, upd_same]
    · rw [upd_other _ _ e]; exact h.res p hp
  · have hp : upd hw.defs (ob b tp i) (some d) p = some d' := hp
    by_cases e : p = ob b tp i
    · exact ⟨tp, e ▸ hs⟩
    · rw [upd_other _ _ e] at hp; exact h.sync p d' hp hq
  · have hp : upd hw.defs (ob b tp i) (some d) p = some d' := hp
    by_cases e : p = ob b tp i
    · subst e; rw [upd_same] at hp; cases hp; exact absurd hd hq
    · rw [upd_other _ _ e] at hp; exact h.other p d' hp hq

/-- another object is programmed with a filter for other messages -/
theorem aside (h : Wires env hw slots lim ob df) {o : Nat} {d : ObjDef} (ho : ∀ t, (o, t) ∉ slots)
    (hd : d.svc ≠ .rx true) (hx : NotData d) : Wires env (defHw hw o d) slots lim ob df := by
  have hne : ∀ p ∈ slots, p.1 ≠ o := fun p hp e => ho p.2 (e ▸ hp)
  refine ⟨fun b' t j hj => ⟨(h.port b' t j hj).1, ?_⟩, h.slot, h.nodup, h.inj, fun p hp => ?_, fun p hp => ?_,
    fun p d' hp hq => ?_, fun p d' hp hq => ?_⟩
  · show upd hw.defs o (some d) (ob b' t j) = _
    rw [upd_other _ _ (hne _ (h.port b' t j hj).1)]
    exact (h.port b' t j hj).2
  · have hi' : (defHw hw o d).isrRx = hw.isrRx := by simp [defHw, hd]
    rw [hi']
    have k := h.ok p hp
    refine ⟨k.1, ?_, k.2.2.1, k.2.2.2⟩
    show upd hw.used o true p.1 = true
    rw [upd_other _ _ (hne p hp)]; exact k.2.1
  · show upd hw.used o true p = true
    by_cases e : p = o
    · rw [e, upd_same]
    · rw [upd_other _ _ e]; exact h.res p hp
  · have hp : upd hw.defs o (some d) p = some d' := hp
    by_cases e : p = o
    · subst e; rw [upd_same] at hp; cases hp; exact absurd hq hd
    · rw [upd_other _ _ e] at hp; exact h.sync p d' hp hq
  · have hp : upd hw.defs o (some d) p = some d' := hp
    by_cases e : p = o
    · subst e; rw [upd_same] at hp; cases hp; exact hx
    · rw [upd_other _ _ e] at hp; exact h.other p d' hp hq

end Wires
end Cpu2
end LiCan
