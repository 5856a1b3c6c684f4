import Verif.Model.Ids
/-! # Identifier properties (C01 - C03) -/
namespace LiCan

theorem idOf_eq (base nr obj : Nat) (h : 1 ≤ nr) (hb : base + 4 * nr + obj < 65536) :
    idOf base nr obj = base + (nr - 1) * 4 + obj := by
  unfold idOf; omega
theorem nrShift_eq (nr : Nat) (h : 1 ≤ nr) : nrShift nr = ((nr - 1) * 2 ^ 2) % 2 ^ 16 := by
  unfold nrShift; omega
theorem syncNrOfId_eq (id : Nat) (h1 : 512 ≤ id) (h2 : id < 2048) : syncNrOfId id = (id - 512) / 4 + 1 := by
  unfold syncNrOfId u16; omega
theorem asyncNrOfId_eq (id : Nat) (h1 : 1536 ≤ id) (h2 : id < 2048) : asyncNrOfId id = (id - 1536) / 4 + 1 := by
  unfold asyncNrOfId u16; omega


/-- The services of the protocol, with the object number where there is one. -/
inductive Spec.Service
  | syncFromSlave (obj : Nat) | syncToSlave (obj : Nat)
  | sysToSlave | sysFromSlave
  | asyncCtrlToSlave | asyncCtrlFromSlave | asyncDataToSlave | asyncDataFromSlave
deriving DecidableEq

open Spec Service

/-- object numbers are 0..3 -/
def Spec.Service.objOk : Service → Prop
  | syncFromSlave o => o < 4
  | syncToSlave o => o < 4
  | _ => True

/-- the identifier the stack uses for a service of a module -/
def serviceId : Service → Nat → Nat
  | syncFromSlave o, nr => syncTxId nr o
  | syncToSlave o, nr => syncRxId nr o
  | sysToSlave, nr => sysRxId nr
  | sysFromSlave, nr => sysTxId nr
  | asyncCtrlToSlave, nr => asyncCtrlRxId nr
  | asyncCtrlFromSlave, nr => asyncCtrlTxId nr
  | asyncDataToSlave, nr => asyncDataRxId nr
  | asyncDataFromSlave, nr => asyncDataTxId nr

/-- C01.  For module numbers 1..128 all identifiers are 11-bit identifiers, none is the process
request, and equal identifiers mean equal service, object and module number. -/
theorem C01_ids_distinct (s s' : Service) (nr nr' : Nat) (hs : s.objOk) (hs' : s'.objOk)
    (h : 1 ≤ nr ∧ nr ≤ 128) (h' : 1 ≤ nr' ∧ nr' ≤ 128) :
    serviceId s nr < 2 ^ 11 ∧ serviceId s nr ≠ processId ∧
    (serviceId s nr = serviceId s' nr' → s = s' ∧ nr = nr') := by
  cases s <;> cases s' <;>
    simp only [objOk, serviceId, syncTxId, syncRxId, sysRxId, sysTxId, asyncCtrlRxId,
      asyncCtrlTxId, asyncDataRxId, asyncDataTxId, processId, reduceCtorEq, false_and,
      true_and, syncFromSlave.injEq, syncToSlave.injEq] at hs hs' ⊢ <;>
    rw [idOf_eq _ _ _ (by omega) (by omega), idOf_eq _ nr' _ (by omega) (by omega)] <;>
    refine ⟨by omega, by omega, fun e => ?_⟩ <;> omega

example : serviceId (syncFromSlave 2) 17 = 0x442 ∧ serviceId asyncDataFromSlave 128 = 0x7FF := by
  decide

/-- The layout in words: service in bits 0-1 and 9-10, module number minus one in bits 2-8. -/
theorem C01_id_layout (nr obj : Nat) (h : 1 ≤ nr ∧ nr ≤ 128) (ho : obj < 4) :
    syncTxId nr obj = 1024 + (nr - 1) * 4 + obj ∧ syncRxId nr obj = 512 + (nr - 1) * 4 + obj ∧
    sysRxId nr = (nr - 1) * 4 + 2 ∧ sysTxId nr = (nr - 1) * 4 + 3 ∧
    asyncCtrlRxId nr = 1536 + (nr - 1) * 4 ∧ asyncCtrlTxId nr = 1536 + (nr - 1) * 4 + 1 ∧
    asyncDataRxId nr = 1536 + (nr - 1) * 4 + 2 ∧ asyncDataTxId nr = 1536 + (nr - 1) * 4 + 3 := by
  simp only [syncTxId, syncRxId, sysRxId, sysTxId, asyncCtrlRxId,
      asyncCtrlTxId, asyncDataRxId, asyncDataTxId]
  refine ⟨?_, ?_, ?_, ?_, ?_, ?_, ?_, ?_⟩ <;>
    rw [idOf_eq _ nr _ h.1 (by omega)] <;> omega

/-- Beyond 128 the claim of C01 fails: the default number of the fifth module row is
125 + 4 = 129 (io_can_config.c:2187), and its first synchronous transmit identifier is the
asynchronous control identifier of module 1 (broadcast), its second the one a slave 1 answers
with. -/
theorem C01_counterexample_above_128 :
    syncTxId 129 0 = asyncCtrlRxId 1 ∧ syncTxId 130 1 = asyncCtrlTxId 2 ∧
    sysTxId 129 = syncRxId 1 3 := by decide

/-- C02.  The receive paths recover module number and object number exactly. -/
theorem C02_decode (nr obj : Nat) (h : 1 ≤ nr ∧ nr ≤ 128) (ho : obj < 4) :
    syncNrOfId (syncRxId nr obj) = nr ∧ syncObjOfId (syncRxId nr obj) = obj ∧
    sysNrOfId (sysRxId nr) = nr ∧ asyncNrOfId (asyncCtrlRxId nr) = nr := by
  have e1 := idOf_eq 512 nr obj h.1 (by omega)
  have e2 := idOf_eq 2 nr 0 h.1 (by omega)
  have e3 := idOf_eq 1536 nr 0 h.1 (by omega)
  unfold syncRxId sysRxId asyncCtrlRxId
  rw [e1, e2, e3, syncNrOfId_eq _ (by omega) (by omega), asyncNrOfId_eq _ (by omega) (by omega)]
  simp only [syncObjOfId, sysNrOfId]
  omega

example : syncNrOfId (syncRxId 42 3) = 42 ∧ syncObjOfId (syncRxId 42 3) = 3 := by decide

/-! ## Acceptance filters -/

theorem filterBits_one : filterBits 1 = 0#16 := by decide

theorem foldl_and_zero (nrs : List Nat) (o : BitVec 16) :
    (nrs.foldl filterFold (o, 0#16)).2 = 0#16 := by
  induction nrs generalizing o with
  | nil => rfl
  | cons n ns ih => simp only [List.foldl_cons, filterFold, BitVec.zero_and]; exact ih _

theorem foldl_or (nrs : List Nat) (o a : BitVec 16) (i : Nat) :
    (nrs.foldl filterFold (o, a)).1.getLsbD i = true ↔
      o.getLsbD i = true ∨ ∃ nr ∈ nrs, (filterBits nr).getLsbD i = true := by
  induction nrs generalizing o a with
  | nil => simp
  | cons n ns ih =>
    simp only [List.foldl_cons, filterFold, ih, BitVec.getLsbD_or, Bool.or_eq_true,
      List.mem_cons, exists_eq_or_imp, or_assoc]

theorem mask_bit : ∀ i < 16, (0x01FC#16).getLsbD i = decide (2 ≤ i ∧ i ≤ 8) := by decide
theorem mask_bit603 : ∀ i < 16, (0x0603#16).getLsbD i = decide (i ≤ 1 ∨ i = 9 ∨ i = 10) := by decide

/-- bit `i` (2..8) of the identifiers of module `nr` is bit `i-2` of `nr-1` -/
theorem filterBits_bit (nr : Nat) (hnr : 1 ≤ nr) (i : Nat) :
    (filterBits nr).getLsbD i = (decide (2 ≤ i ∧ i ≤ 8) && (nr - 1).testBit (i - 2)) := by
  by_cases hi : i < 16
  · simp only [filterBits, BitVec.getLsbD_and, mask_bit i hi, BitVec.getLsbD_ofNat, hi,
      decide_true, Bool.true_and]
    by_cases h2 : 2 ≤ i ∧ i ≤ 8
    · simp only [h2, and_self, decide_true, Bool.true_and]
      have e : nrShift nr = ((nr - 1) * 2 ^ 2) % 2 ^ 16 := by
        exact nrShift_eq nr hnr
      rw [e, Nat.testBit_mod_two_pow, Nat.testBit_mul_two_pow]
      simp [hi, h2.1]
    · simp [h2]
  · have h1 : ¬ (2 ≤ i ∧ i ≤ 8) := by omega
    simp only [h1, decide_false, Bool.false_and]
    exact BitVec.getLsbD_of_ge _ _ (by omega)

/-- C03 (exact).  The filter for service bits `svc` (0x002 for system messages, 0x602 for
asynchronous data) programmed for the module numbers `nrs` lets an 11-bit identifier through
exactly if its service bits are `svc` and every number bit set in it is set in the number of some
registered module. -/
theorem C03_filter_exact (nrs : List Nat) (hn : ∀ nr ∈ nrs, 1 ≤ nr) (svc id : BitVec 16)
    (hsvc : svc = 0x002#16 ∨ svc = 0x602#16) :
    hwAccepts svc (acceptMask nrs) id = true ↔
      (∀ i, i ≤ 1 ∨ i = 9 ∨ i = 10 → id.getLsbD i = svc.getLsbD i) ∧
      (∀ i, 2 ≤ i → i ≤ 8 → id.getLsbD i = true → ∃ nr ∈ nrs, (nr - 1).testBit (i - 2) = true) := by
  have hsvc0 : ∀ i, 2 ≤ i → i ≤ 8 → svc.getLsbD i = false := by
    intro i h1 h2
    have : ∀ i ≤ 8, 2 ≤ i → (0x002#16).getLsbD i = false ∧ (0x602#16).getLsbD i = false := by
      decide
    rcases hsvc with h | h <;> subst h
    · exact (this i h2 h1).1
    · exact (this i h2 h1).2
  have hmask : ∀ i < 16, (acceptMask nrs).getLsbD i = true ↔
      (i ≤ 1 ∨ i = 9 ∨ i = 10) ∨
      ((2 ≤ i ∧ i ≤ 8) ∧ ¬ ∃ nr ∈ nrs, (nr - 1).testBit (i - 2) = true) := by
    intro i hi
    simp only [acceptMask, filterMask, BitVec.getLsbD_or, BitVec.getLsbD_and, mask_bit i hi,
      mask_bit603 i hi, BitVec.getLsbD_not, hi, filterBits_one, foldl_and_zero, decide_true,
      Bool.true_and, BitVec.getLsbD_zero, Bool.false_or, Bool.or_eq_true, Bool.and_eq_true,
      decide_eq_true_eq, Bool.not_eq_true', ← Bool.not_eq_true, foldl_or]
    constructor
    · rintro (h | ⟨h, h'⟩)
      · exact Or.inl h
      · refine Or.inr ⟨h, fun ⟨nr, hm, hb⟩ => h' (Or.inr ⟨nr, hm, ?_⟩)⟩
        rw [filterBits_bit nr (hn nr hm)]; simp [h, hb]
    · rintro (h | ⟨h, h'⟩)
      · exact Or.inl h
      · refine Or.inr ⟨h, ?_⟩
        rintro (h0 | ⟨nr, hm, hb⟩)
        · simp at h0
        · rw [filterBits_bit nr (hn nr hm)] at hb
          exact h' ⟨nr, hm, by simpa [h] using hb⟩
  simp only [hwAccepts, beq_iff_eq]
  constructor
  · intro heq
    have hbit : ∀ i < 16, (acceptMask nrs).getLsbD i = true → id.getLsbD i = svc.getLsbD i := by
      intro i hi hm
      have := congrArg (fun b => b.getLsbD i) heq
      simpa [BitVec.getLsbD_and, hm] using this
    refine ⟨fun i hi => hbit i (by omega) ((hmask i (by omega)).mpr (Or.inl hi)), ?_⟩
    intro i h1 h2 hset
    refine Classical.byContradiction fun hcon => ?_
    have := hbit i (by omega) ((hmask i (by omega)).mpr (Or.inr ⟨⟨h1, h2⟩, hcon⟩))
    rw [hset, hsvc0 i h1 h2] at this
    exact absurd this (by simp)
  · rintro ⟨hs, hnum⟩
    apply BitVec.eq_of_getLsbD_eq
    intro i hi
    simp only [BitVec.getLsbD_and]
    cases hm : (acceptMask nrs).getLsbD i
    · simp
    · rcases (hmask i hi).mp hm with h | ⟨h, h'⟩
      · rw [hs i h]
      · cases hid : id.getLsbD i
        · rw [hsvc0 i h.1 h.2]
        · exact absurd (hnum i h.1 h.2 hid) h'

theorem sysRxId_bits (nr : Nat) (h : 1 ≤ nr ∧ nr ≤ 128) :
    (∀ i, i ≤ 1 ∨ i = 9 ∨ i = 10 →
      (BitVec.ofNat 16 (sysRxId nr)).getLsbD i = (0x002#16).getLsbD i ∧
      (BitVec.ofNat 16 (asyncDataRxId nr)).getLsbD i = (0x602#16).getLsbD i) ∧
    (∀ i, 2 ≤ i → i ≤ 8 →
      (BitVec.ofNat 16 (sysRxId nr)).getLsbD i = (nr - 1).testBit (i - 2) ∧
      (BitVec.ofNat 16 (asyncDataRxId nr)).getLsbD i = (nr - 1).testBit (i - 2)) := by
  have hall : ∀ k : Fin 128, ∀ i : Fin 11,
      ((i.val ≤ 1 ∨ i.val = 9 ∨ i.val = 10) →
        (BitVec.ofNat 16 (sysRxId (k.val + 1))).getLsbD i.val = (0x002#16).getLsbD i.val ∧
        (BitVec.ofNat 16 (asyncDataRxId (k.val + 1))).getLsbD i.val = (0x602#16).getLsbD i.val) ∧
      (2 ≤ i.val → i.val ≤ 8 →
        (BitVec.ofNat 16 (sysRxId (k.val + 1))).getLsbD i.val = k.val.testBit (i.val - 2) ∧
        (BitVec.ofNat 16 (asyncDataRxId (k.val + 1))).getLsbD i.val = k.val.testBit (i.val - 2)) := by
    decide +kernel
  have e : nr - 1 + 1 = nr := by omega
  refine ⟨fun i hi => ?_, fun i h1 h2 => ?_⟩
  · have := (hall ⟨nr - 1, by omega⟩ ⟨i, by omega⟩).1 hi
    simpa only [e] using this
  · have := (hall ⟨nr - 1, by omega⟩ ⟨i, by omega⟩).2 h1 h2
    simpa only [e] using this

/-- C03.  The filters let through every message addressed to a registered module or to the
broadcast number 1. -/
theorem C03_filter_complete (nrs : List Nat) (hn : ∀ nr ∈ nrs, 1 ≤ nr ∧ nr ≤ 128) (nr : Nat)
    (h : nr = 1 ∨ nr ∈ nrs) :
    hwAccepts 0x002#16 (acceptMask nrs) (BitVec.ofNat 16 (sysRxId nr)) = true ∧
    hwAccepts 0x602#16 (acceptMask nrs) (BitVec.ofNat 16 (asyncDataRxId nr)) = true := by
  have hr : 1 ≤ nr ∧ nr ≤ 128 := by
    rcases h with h | h
    · omega
    · exact hn nr h
  have hb := sysRxId_bits nr hr
  have hex : ∀ i, (nr - 1).testBit (i - 2) = true → ∃ n ∈ nrs, (n - 1).testBit (i - 2) = true := by
    intro i hi
    rcases h with h | h
    · subst h; simp at hi
    · exact ⟨nr, h, hi⟩
  constructor
  · rw [C03_filter_exact nrs (fun n h => (hn n h).1) _ _ (Or.inl rfl)]
    exact ⟨fun i hi => (hb.1 i hi).1, fun i h1 h2 hi => hex i (by rw [← (hb.2 i h1 h2).1]; exact hi)⟩
  · rw [C03_filter_exact nrs (fun n h => (hn n h).1) _ _ (Or.inr rfl)]
    exact ⟨fun i hi => (hb.1 i hi).2, fun i h1 h2 hi => hex i (by rw [← (hb.2 i h1 h2).2]; exact hi)⟩

/-- modules 5 and 12: the filter also lets 16 through (4|11 = 15), but not 33 -/
example : hwAccepts 2 (acceptMask [5, 12]) (BitVec.ofNat 16 (sysRxId 12)) = true ∧
    hwAccepts 2 (acceptMask [5, 12]) (BitVec.ofNat 16 (sysRxId 16)) = true ∧
    hwAccepts 2 (acceptMask [5, 12]) (BitVec.ofNat 16 (sysRxId 33)) = false := by decide

end LiCan
