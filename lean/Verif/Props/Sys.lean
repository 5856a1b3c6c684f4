import Verif.Lemmas.SlaveSend
import Verif.Props.Sync
/-! # System messages: C23 - C27, C51 -/
namespace LiCan
open Node Spec
namespace Spec

/-- Big-endian value of bytes. -/
def bigEndian (l : List Byte) : Nat := l.foldl (fun a b => a * 256 + b.toNat) 0

/-- The addressing rules for system messages: the error code a message is refused with, `none` if it
is carried out.  `known`: some row has the addressed number; `mods`: number of registered modules. -/
def refusal (known : Bool) (mods nr dlc cmd : Nat) : Option Err :=
  if dlc ≠ 8 then some 0x503B#16                                            -- INVALID_SYS_MSG_DLC
  else if nr ≠ 1 ∧ known = false then some 0#16                             -- not for this slave
  else if nr = 1 ∧ mods = 0 then some 0x505B#16                             -- MODULE_NOT_FOUND
  else if cmd = 0x02 ∧ nr ≠ 1 then some 0x5075#16                           -- not allowed direct
  else if cmd ∈ [0x20, 0x21, 0x22, 0x31] ∧ nr = 1 then some 0x506C#16       -- not allowed broadcast
  else if cmd ∈ [0x03, 0x0A, 0x0B, 0x23] then some 0x5068#16                -- not implemented
  else if cmd ∉ [0x01, 0x02, 0x05, 0x07, 0x08, 0x20, 0x21, 0x22, 0x30, 0x31] then some 0x5065#16
  else none

/-- Is there a row with this number? -/
def knownNr (env : Env) (n : Node) (nr : Nat) : Bool := (List.range env.maxMod).any fun i => (n.rows i).nr == nr

/-- A module type name as four bytes. -/
def name4 (typ : List Byte) : List Byte := (List.range 4).map fun i => typ.getD i 0

/-- What a master reads from a status acknowledge: module number, type name, serial number. -/
def readStatus (f : Frame) : Option (Nat × List Byte × Nat) :=
  match f.data with
  | [0x04, a, b, c, d, x, y, z] =>
    if f.dlc = 8 ∧ f.id % 4 = 3 then some (f.id / 4 + 1, [a, b, c, d], bigEndian [x, y, z]) else none
  | _ => none

/-- Boot kernel and software version from the first version message. -/
def readVersion1 (d : List Byte) : Option ((Nat × Nat) × (Nat × Nat)) :=
  match d with
  | [0x05, a, b, c, 0x00, x, y, z] => some ((bigEndian [a], bigEndian [b, c]), (bigEndian [x], bigEndian [y, z]))
  | _ => none

/-- Ident number and change index from the second version message. -/
def readVersion2 (d : List Byte) : Option (Nat × Nat) :=
  match d with
  | [0x06, a, b, c, e, x, y, z] => some (bigEndian [a, b, c, e], bigEndian [x, y, z])
  | _ => none

/-- Message code, additional information, priority and group from an error message. -/
def readError (d : List Byte) : Option (Nat × Nat × Nat × Nat) :=
  match d with
  | [0x03, a, b, c, e, x, y, z] => some (bigEndian [a, b, c, e], x.toNat, y.toNat, z.toNat)
  | _ => none

/-- What a master reads from an error message: module number and content. -/
def readErrorFrame (f : Frame) : Option (Nat × Nat × Nat × Nat × Nat) :=
  if f.dlc = 8 ∧ f.id % 4 = 3 then (readError f.data).map fun e => (f.id / 4 + 1, e) else none

end Spec
namespace Slave

theorem knownNr_iff (env : Env) (n : Node) (nr : Nat) : knownNr env n nr = false ↔ n.findNr env nr = none := by
  unfold knownNr findNr
  rw [List.find?_eq_none]
  simp

/-- C23.  A system message that the rules refuse has no effect at all except the error code. -/
theorem C23_refused (env : Env) (s : Slave) (nr dlc : Nat) (src : List Byte) (e : Err)
    (h : refusal (knownNr env s.node nr) s.node.nrMod nr dlc (at8 src 0) = some e) :
    sysMsg env s nr dlc src = some (s, e) := by
  unfold refusal at h
  unfold sysMsg
  split at h
  · next h0 => injection h with h; subst h; rw [if_pos h0]
  rw [if_neg ‹_›]
  simp only
  split at h
  · next h1 =>
    injection h with h; subst h
    rw [if_pos ⟨h1.1, by rw [if_neg h1.1]; exact (knownNr_iff ..).1 h1.2⟩]
  next h1 =>
  rw [if_neg (by
    rintro ⟨a, b⟩
    rw [if_neg a] at b
    exact h1 ⟨a, (knownNr_iff ..).2 b⟩)]
  split at h
  · next h2 => injection h with h; subst h; rw [if_pos h2]
  rw [if_neg ‹_›]
  generalize hd : (if nr = 1 then none else findNr env s.node nr) = dst
  have hdst : nr = 1 → dst = none := by intro h; rw [← hd, if_pos h]
  generalize at8 src 0 = c at h ⊢
  split at h
  · next h3 =>
    injection h with h; subst h
    obtain ⟨rfl, h3⟩ := h3
    simp only [if_pos h3]
  split at h
  · next h4 =>
    injection h with h; subst h
    obtain ⟨h4, h5⟩ := h4
    simp only [List.mem_cons, List.not_mem_nil, or_false] at h4
    rcases h4 with rfl | rfl | rfl | rfl
    · rw [hdst h5]; rfl
    · simp only [if_pos h5]
    · simp only [if_pos h5]
    · rw [hdst h5]; rfl
  split at h
  · next h4 =>
    injection h with h; subst h
    simp only [List.mem_cons, List.not_mem_nil, or_false] at h4
    rcases h4 with rfl | rfl | rfl | rfl <;> rfl
  split at h
  · next h3 h5 h4 h6 =>
    injection h with h; subst h
    simp only [List.mem_cons, List.not_mem_nil, or_false, not_or] at h6 h4
    obtain ⟨a1, a2, a3, a4, a5, a6, a7, a8, a9, a10⟩ := h6
    obtain ⟨b1, b2, b3, b4⟩ := h4
    split <;> first | contradiction | rfl
  · cases h

/-- C23 on the bus.  A refused message received in the system object transmits nothing and changes
nothing but the error queue, where the error is recorded. -/
theorem C23_refused_frame (env : Env) (he : EnvOk env) (s : Slave) (hs : SReach env s) (now dlc id : Nat)
    (data : List Byte) (e : Err)
    (h : refusal (knownNr env s.node (sysNrOfId id)) s.node.nrMod (sysNrOfId id) dlc (at8 data 0) = some e) :
    step env s (.frame now 2 dlc id data) = some { s with node := s.node.report env e } := by
  show handlerRx env s now 2 dlc id data = _
  rw [handlerRx_eq, if_pos (.inl rfl)]
  have hd : dataPart env s 2 dlc id data = s := by
    unfold dataPart
    rw [if_neg]
    intro hb
    obtain ⟨t, g, -⟩ := (hs.inv he).2
    have h1 := (bit_and_iff _ 2 (by decide)).1 hb
    have h2 := (g.hw.isr 2 (by decide)).1 h1
    exact (g.hw.asg 2 (by simp only [assigned, List.mem_append]; exact .inl h2)).2.1 (.inr (.inl rfl))
  rw [hd]
  have hr : reqPart env s now 2 dlc = some s := by unfold reqPart; rw [if_neg (by decide)]
  rw [hr]
  simp only [Option.bind_some, sysPart, C23_refused env s _ dlc data e h, Option.map_some]

/-- module 5 exists, 6 does not: wrong length, unknown number, direct baud rate change, broadcast
number change, command 0x42 -/
example : (exStart.map fun s => [refusal (knownNr exEnv s.node 5) s.node.nrMod 5 7 1,
      refusal (knownNr exEnv s.node 6) s.node.nrMod 6 8 1, refusal (knownNr exEnv s.node 5) s.node.nrMod 5 8 2,
      refusal (knownNr exEnv s.node 1) s.node.nrMod 1 8 0x20, refusal (knownNr exEnv s.node 5) s.node.nrMod 5 8 0x42,
      refusal (knownNr exEnv s.node 5) s.node.nrMod 5 8 1]) =
    some [some 0x503B#16, some 0#16, some 0x5075#16, some 0x506C#16, some 0x5065#16, none] := by decide +kernel

/-! ## C24 -/

theorem serialOf_eq (src : List Byte) (h : src.length = 8) : serialOf src = bigEndian (src.drop 5) := by
  match src, h with
  | [a0, a1, a2, a3, a4, a5, a6, a7], _ =>
    simp only [serialOf, at8, bigEndian, List.getD_cons_succ, List.getD_cons_zero, List.drop_succ_cons, List.drop_zero,
      List.foldl_cons, List.foldl_nil]
    omega

/-- C24.  A number change, silent, awake or type change message with a different serial number
changes nothing. -/
theorem C24_serial_required (env : Env) (s s' : Slave) (nr dlc : Nat) (src : List Byte) (e : Err)
    (hl : src.length = 8) (hc : at8 src 0 ∈ [0x20, 0x21, 0x22, 0x31]) (hs : env.serial ≠ bigEndian (src.drop 5))
    (h : sysMsg env s nr dlc src = some (s', e)) : s' = s := by
  rw [← serialOf_eq src hl] at hs
  have := sysMsg_eff h
  simp only [List.mem_cons, List.not_mem_nil, or_false] at hc
  cases this with
  | none => rfl
  | status h => omega
  | baud h => omega
  | version h => omega
  | time h => omega
  | cycle h => omega
  | reset h => omega
  | number h hs' => exact absurd hs' hs
  | silent h hs' => exact absurd hs' hs
  | type h hs' => exact absurd hs' hs

theorem serialOf_lt (src : List Byte) : serialOf src < 2 ^ 24 := by
  unfold serialOf at8
  have h5 := (src.getD 5 0).toNat_lt
  have h6 := (src.getD 6 0).toNat_lt
  have h7 := (src.getD 7 0).toNat_lt
  omega

/-- C24.  A device whose serial number does not fit 24 bits never obeys these commands, and in every
case the module table is changed by no other system message. -/
theorem C24_large_serial (env : Env) (s s' : Slave) (nr dlc : Nat) (src : List Byte) (e : Err)
    (hs : 2 ^ 24 ≤ env.serial) (h : sysMsg env s nr dlc src = some (s', e)) :
    s'.node.rows = s.node.rows ∧ s'.node.silent = s.node.silent ∧ s'.node.hw = s.node.hw ∧ s'.node.tx = s.node.tx := by
  have hlt := serialOf_lt src
  have eff := sysMsg_eff h
  cases eff with
  | status h n hn => exact ⟨hn.light.rows, hn.light.silent, hn.light.hw, hn.light.tx⟩
  | version h n hn => exact ⟨hn.light.rows, hn.light.silent, hn.light.hw, hn.light.tx⟩
  | cycle h => unfold setCycle; split <;> exact ⟨rfl, rfl, rfl, rfl⟩
  | number h hs' => omega
  | silent h hs' => omega
  | type h hs' => omega
  | _ => exact ⟨rfl, rfl, rfl, rfl⟩

/-- C24.  With the right serial number, module number and type name the command is carried out: the
module is silent or awake afterwards. -/
theorem C24_silent_awake (env : Env) (s : Slave) (hs : TableInv env s.node) (i : Nat) (st : Nat) (src : List Byte)
    (hi : (s.node.rows i).typ ≠ []) (hn : (s.node.rows i).nr ≠ 1) (hl : src.length = 8)
    (hc : (at8 src 0 = 0x21 ∧ st = 0) ∨ (at8 src 0 = 0x22 ∧ st = 1))
    (hser : env.serial = bigEndian (src.drop 5))
    (ht : (s.node.rows i).typ.take 4 = ((src.drop 1).take 4).takeWhile (· ≠ 0)) :
    ∃ s' e, sysMsg env s (s.node.rows i).nr 8 src = some (s', e) ∧ s'.node.silent i = st ∧
      ∀ j, j ≠ i → s'.node.silent j = s.node.silent j := by
  have hf := hs.find hi
  have hmax : i < env.maxMod := by
    unfold findNr at hf
    rw [List.find?_range_eq_some] at hf
    simpa using hf.2.1
  have key : sysMsg env s (s.node.rows i).nr 8 src =
      some ({ s with node := (s.node.setSilentAwake env i st).1 }, (s.node.setSilentAwake env i st).2) := by
    have hsil : sysSilentAwake env s src (s.node.rows i).nr st =
        ({ s with node := (s.node.setSilentAwake env i st).1 }, (s.node.setSilentAwake env i st).2) := by
      unfold sysSilentAwake
      have ht : List.take 4 (s.node.rows i).typ = typeOf src := ht
      rw [if_pos (by rw [serialOf_eq src hl]; exact hser), hf]
      simp only
      rw [if_pos ht]
    unfold sysMsg
    rw [if_neg (by simp)]
    simp only
    rw [if_neg hn, hf, if_neg (by simp), if_neg (by simp [hn])]
    rcases hc with ⟨hc, rfl⟩ | ⟨hc, rfl⟩ <;> rw [hc] <;> simp only [if_neg hn] <;> rw [hsil]
  refine ⟨_, _, key, ?_⟩
  show (s.node.setSilentAwake env i st).1.silent i = st ∧ ∀ j, j ≠ i → (s.node.setSilentAwake env i st).1.silent j = _
  have : (s.node.setSilentAwake env i st).1.silent = upd s.node.silent i st := by
    unfold setSilentAwake
    rw [if_pos hmax]
    simp only
    split
    · obtain ⟨m, u, e⟩ := syncOff_eq env { s.node with silent := upd s.node.silent i st, log := .silentCb i (s.node.rows i).nr st :: s.node.log } i
      rw [e]
    · split
      · rw [syncOn_eq]
      · rfl
  rw [this]
  exact ⟨upd_same .., fun j hj => upd_other _ _ hj⟩

/-- serial number 0x010203: silent message to module 5 with the right and a wrong serial number -/
example : let env : Env := { exEnv with serial := 0x010203 }
    ((exStart.bind fun s => run env s [.frame 0 2 8 0x012 [0x21, 77, 68, 65, 0, 1, 2, 3]]).map fun s => s.node.silent 0) = some 0 ∧
    ((exStart.bind fun s => run env s [.frame 0 2 8 0x012 [0x21, 77, 68, 65, 0, 1, 2, 4]]).map fun s => s.node.silent 0) = some 1 ∧
    ((exStart.bind fun s => run { env with serial := 0x01010203 } s [.frame 0 2 8 0x012 [0x21, 77, 68, 65, 0, 1, 2, 3]]).map
      fun s => s.node.silent 0) = some 1 := by decide +kernel

/-! ## C25, C26, C27 -/

theorem byteOf_toNat (x k : Nat) : (byteOf x k).toNat = x / 256 ^ k % 256 := by
  unfold byteOf; simp

theorem type4_eq (typ : List Byte) : type4 typ = name4 typ := by
  unfold type4 name4
  match typ with
  | [] => rfl
  | [a] => rfl
  | [a, b] => rfl
  | [a, b, c] => rfl
  | a :: b :: c :: d :: l => simp [List.range_succ, List.range_zero]

theorem name4_form (typ : List Byte) : ∃ a b c d, name4 typ = [a, b, c, d] := ⟨_, _, _, _, rfl⟩

/-- the status acknowledge of row `i` -/
def statusFrame (env : Env) (n : Node) (i : Nat) : Frame :=
  ⟨sysTxId (n.rows i).nr, 8, statusBytes (n.rows i).typ env.serial⟩

theorem readStatus_statusFrame (env : Env) (n : Node) (i : Nat) (h1 : 1 ≤ (n.rows i).nr) (h2 : (n.rows i).nr ≤ 132) :
    readStatus (statusFrame env n i) = some ((n.rows i).nr, name4 (n.rows i).typ, env.serial % 2 ^ 24) := by
  obtain ⟨a, b, c, d, e⟩ := name4_form (n.rows i).typ
  unfold statusFrame readStatus statusBytes
  rw [type4_eq, e]
  simp only [List.cons_append, List.nil_append]
  have hid : sysTxId (n.rows i).nr = 4 * ((n.rows i).nr - 1) + 3 := by
    unfold sysTxId idOf; omega
  rw [hid, if_pos ⟨trivial, by omega⟩]
  congr 2
  · omega
  · simp only [bigEndian, List.foldl_cons, List.foldl_nil, byteOf_toNat, Prod.mk.injEq, true_and]
    omega

/-- the rows addressed by a message -/
def dstRows (n : Node) (dst : Option Nat) : List Nat :=
  match dst with
  | none => List.range n.nrMod
  | some tp => [tp]

/-- everything a status request sends -/
theorem status_frames {env : Env} {s : Slave} (hi : TableInv env s.node) (hq : QInv env.qSize s.node.errq)
    (nr : Nat) (src : List Byte) (hc : at8 src 0 = 1)
    (ha : (nr = 1 ∧ s.node.nrMod ≠ 0) ∨ (nr ≠ 1 ∧ s.node.findNr env nr ≠ none)) :
    ∃ s', sysMsg env s nr 8 src = some (s', E.ok) ∧
      framesOf s'.node.log =
        (if env.sysErr then (pending env.qSize s.node.errq).flatMap (errFrames env s.node) else []).reverse ++
        ((if s.link.mode = .listen then [] else
          (dstRows s.node (if nr = 1 then none else s.node.findNr env nr)).flatMap fun i =>
            sysFrames env s.node (s.node.rows i).nr (statusBytes (s.node.rows i).typ env.serial)).reverse ++
        framesOf s.node.log) ∧
      (env.sysErr = true → s'.node.errq.getCount = 0) ∧ (env.sysErr = false → s'.node.errq = s.node.errq) := by
  have hd : ¬ (nr ≠ 1 ∧ (if nr = 1 then none else findNr env s.node nr) = none) := by
    rcases ha with ⟨a, -⟩ | ⟨a, b⟩
    · simp [a]
    · rw [if_neg a]; simp [b]
  have hd2 : ¬ (nr = 1 ∧ s.node.nrMod = 0) := by rcases ha with ⟨a, b⟩ | ⟨a, b⟩ <;> simp [a, b]
  have htp : ∀ i ∈ dstRows s.node (if nr = 1 then none else s.node.findNr env nr), i < env.maxMod := by
    intro i hi'
    rcases ha with ⟨a, -⟩ | ⟨a, b⟩
    · rw [if_pos a] at hi'
      simp only [dstRows, List.mem_range] at hi'
      have := hi.nrMod; omega
    · rw [if_neg a] at hi'
      cases hf : s.node.findNr env nr with
      | none => exact absurd hf b
      | some tp =>
        rw [hf] at hi'
        simp only [dstRows, List.mem_singleton] at hi'
        subst hi'
        unfold findNr at hf
        rw [List.find?_range_eq_some] at hf
        simpa using hf.2.1
  unfold sysMsg
  rw [if_neg (by simp)]
  simp only
  rw [if_neg hd, if_neg hd2, hc]
  generalize (if nr = 1 then none else findNr env s.node nr) = dst at htp ⊢
  simp only
  -- the acknowledge
  have hl : Light s.node (statusHead env s).node := ⟨rfl, rfl, rfl, rfl, rfl, rfl, rfl, rfl⟩
  have hf0 : framesOf (statusHead env s).node.log = framesOf s.node.log := by
    have aux : ∀ (b : Bool) (v : Nat), framesOf ((if b then [Ev.wait v] else []) ++
        (if s.sys.first then [] else calls s.sys.firstCb) ++ s.node.log) = framesOf s.node.log := by
      intro b v
      rw [framesOf_append, framesOf_append]
      have e1 : framesOf (if b then [Ev.wait v] else []) = [] := by cases b <;> rfl
      have e2 : framesOf (if s.sys.first then [] else calls s.sys.firstCb) = [] := by
        cases s.sys.first <;> cases s.sys.firstCb <;> rfl
      rw [e1, e2]; rfl
    exact aux _ _
  have ack : framesOf (statusRequest env s dst).1.node.log =
      (if s.link.mode = .listen then [] else (dstRows s.node dst).flatMap fun i =>
        sysFrames env s.node (s.node.rows i).nr (statusBytes (s.node.rows i).typ env.serial)).reverse ++ framesOf s.node.log ∧
      (statusRequest env s dst).2 = E.ok := by
    rw [statusRequest_head]
    by_cases hm : s.link.mode = .listen
    · have hz : ∀ (s : Slave) (i : Nat), s.link.mode = .listen → statusAckn env s i = (s, E.ok) := by
        intro s i h; unfold statusAckn; rw [if_pos h]
      rw [if_pos hm]
      cases dst with
      | none => simp only; rw [forRows_listen (env := env) hz _ (statusHead env s) hm]; exact ⟨hf0, rfl⟩
      | some tp => simp only; rw [hz (statusHead env s) _ hm]; exact ⟨hf0, rfl⟩
    · rw [if_neg hm]
      have hrev : ∀ n i, (sysFrames env n (n.rows i).nr (statusBytes (n.rows i).typ env.serial)).reverse =
          sysFrames env n (n.rows i).nr (statusBytes (n.rows i).typ env.serial) := by
        intro n i; unfold sysFrames; split <;> rfl
      cases dst with
      | none =>
        have := forRows_frames (env := env) (f := statusAckn env)
          (g := fun n i => sysFrames env n (n.rows i).nr (statusBytes (n.rows i).typ env.serial))
          (fun s i h1 h2 => by rw [hrev]; exact statusAckn_frames env s i h1 h2) (statusAckn_sentOnly env)
          (fun n n' i l => by rw [sysFrames_light l, l.rows]) (List.range s.node.nrMod) (statusHead env s) hm htp
        rw [hf0] at this
        exact this
      | some tp =>
        have := statusAckn_frames env (statusHead env s) tp hm (htp tp (by simp [dstRows]))
        rw [hf0] at this
        simp only [dstRows, List.flatMap_cons, List.flatMap_nil, List.append_nil]
        rw [hrev]
        exact this
  have hle := (statusRequest_eff env s dst)
  have hqe := statusRequest_errq env s dst
  generalize statusRequest env s dst = r at ack hle hqe ⊢
  obtain ⟨n, hn, hr⟩ := hle
  rw [if_neg (by rw [ack.2]; simp)]
  cases hse : env.sysErr
  · simp only [Bool.false_eq_true, if_false, List.reverse_nil, List.nil_append]
    refine ⟨r.1, by rw [← ack.2], ack.1, by simp, fun _ => hqe⟩
  · simp only [if_true]
    have hq' : QInv env.qSize r.1.node.errq := by rw [hqe]; exact hq
    obtain ⟨r', d1, d2, d3, d4⟩ := drain_frames r.1.node.errq.count (r.1.node, r.2) hq' (by
      show r.1.node.errq.getCount ≤ _; unfold ErrQ.getCount; split <;> omega)
    refine ⟨{ r.1 with node := r'.1 }, ?_, ?_, fun _ => d2, by simp⟩
    · rw [d1]; simp only [Option.map_some]; rw [d4 ack.2]
    · show framesOf r'.1.log = _
      rw [d3]
      simp only
      have hlight : Light s.node r.1.node := by
        rw [hr]; exact hl.trans hn.light
      have : errFrames env r.1.node = errFrames env s.node := by funext y; exact errFrames_light hlight y
      rw [this, hqe, ack.1]

theorem SReach.queue {env : Env} {s : Slave} (h : SReach env s) : QInv env.qSize s.node.errq := by
  obtain ⟨mem, baud, is, -, -, hr⟩ := h
  have e1 : Slave.run env (Slave.boot mem) (.init baud :: is) = Slave.run env (Slave.init env (Slave.boot mem) baud).1 is := by
    rw [Slave.run, Slave.step, Option.bind_some]
  rw [← e1] at hr
  obtain ⟨ops, e⟩ := errq_reach env mem (.init baud :: is) s hr
  rw [e]; exact (QInv.boot _).run ops

/-- C25.  A status request to all: every awake registered module answers exactly once, in table
order, and the answer tells its number, its type name and the low 24 bits of the serial number.
(After the answers come the error messages of C27.)  In listen-only mode nobody answers. -/
theorem C25_status_broadcast (env : Env) (he : EnvOk env) (s : Slave) (hs : SReach env s) (src : List Byte)
    (hc : at8 src 0 = 1) (hm : s.node.nrMod ≠ 0) :
    ∃ (s' : Slave) (errs ans : List Frame), sysMsg env s 1 8 src = some (s', E.ok) ∧
      framesOf s'.node.log = errs ++ (ans.reverse ++ framesOf s.node.log) ∧
      (env.sysErr = false → errs = []) ∧
      ans.map readStatus = if s.link.mode = .listen then [] else
        ((List.range s.node.nrMod).filter fun i => s.node.silent i == 1).map fun i =>
          some ((s.node.rows i).nr, name4 (s.node.rows i).typ, env.serial % 2 ^ 24) := by
  have hi := (hs.inv he).2
  obtain ⟨s', h1, h2, -⟩ := status_frames hi hs.queue 1 src hc (.inl ⟨rfl, hm⟩)
  refine ⟨s', _, _, h1, h2, ?_, ?_⟩
  · intro h; rw [h]; rfl
  · split
    · rfl
    · simp only [if_true, dstRows]
      have hmem : ∀ i ∈ List.range s.node.nrMod, i < s.node.nrMod := fun i h => List.mem_range.1 h
      generalize List.range s.node.nrMod = l at hmem
      induction l with
      | nil => rfl
      | cons i l ih =>
        have reg := hi.reg (hmem i (by simp))
        have hb := hi.registered he reg
        have m8 := he.m8
        rw [List.flatMap_cons, List.map_append, ih (fun j hj => hmem j (by simp [hj]))]
        unfold sysFrames
        rw [hi.awake reg]
        by_cases ha : s.node.silent i == 1
        · rw [if_pos ha, List.filter_cons_of_pos (p := fun i => s.node.silent i == 1) ha, List.map_cons]
          have := readStatus_statusFrame env s.node i (by omega) (by omega)
          unfold statusFrame at this
          simp only [List.map_cons, List.map_nil, List.singleton_append, this]
        · rw [if_neg ha, List.filter_cons_of_neg (p := fun i => s.node.silent i == 1) ha]; rfl

/-- C25.  A status request to one registered module: it answers once if it is awake, otherwise not. -/
theorem C25_status_direct (env : Env) (he : EnvOk env) (s : Slave) (hs : SReach env s) (i : Nat) (src : List Byte)
    (hc : at8 src 0 = 1) (hi : (s.node.rows i).typ ≠ []) (hm : s.link.mode ≠ .listen) :
    ∃ (s' : Slave) (errs ans : List Frame), sysMsg env s (s.node.rows i).nr 8 src = some (s', E.ok) ∧
      framesOf s'.node.log = errs ++ (ans ++ framesOf s.node.log) ∧
      (env.sysErr = false → errs = []) ∧
      ans.map readStatus = if s.node.silent i = 1 then
        [some ((s.node.rows i).nr, name4 (s.node.rows i).typ, env.serial % 2 ^ 24)] else [] := by
  have hv := (hs.inv he).2
  have hb := hv.registered he hi
  have m8 := he.m8
  have hn : (s.node.rows i).nr ≠ 1 := by omega
  obtain ⟨s', h1, h2, -⟩ := status_frames hv hs.queue (s.node.rows i).nr src hc
    (.inr ⟨hn, by rw [hv.find hi]; simp⟩)
  refine ⟨s', _, _, h1, h2, ?_, ?_⟩
  · intro h; rw [h]; rfl
  · rw [if_neg hm, if_neg hn, hv.find hi]
    simp only [dstRows, List.flatMap_cons, List.flatMap_nil, List.append_nil]
    unfold sysFrames
    rw [hv.awake hi]
    have := readStatus_statusFrame env s.node i (by omega) (by omega)
    unfold statusFrame at this
    by_cases ha : s.node.silent i = 1
    · simp [ha, this]
    · simp [ha]

theorem exStart_reach : ∃ s, exStart = some s ∧ SReach exEnv s := by
  obtain ⟨s0, e0⟩ := Option.isSome_iff_exists.1 (show exStart.isSome = true by decide +kernel)
  refine ⟨s0, e0, exMem, 250, _, by decide +kernel, ?_, e0⟩
  intro i hi
  simp only [exOps, List.map_cons, List.map_nil, List.cons_append, List.nil_append, List.mem_cons, List.not_mem_nil,
    or_false] at hi
  rcases hi with h | h | h | h | h | h | h | h <;> rw [h] <;> simp [BasicIn, Basic, exTpl]

/-- both modules answer a broadcast; after module 5 was switched off only module 9 does -/
example : let env : Env := { exEnv with serial := 0xAB010203, sysErr := false }
    ((exStart.bind fun s => run env s [.frame 0 2 8 0x002 [1, 0, 0, 0, 0, 0, 0, 0]]).map fun s =>
      (framesOf s.node.log).reverse.filterMap readStatus) =
      some [(5, [77, 68, 65, 0], 0x010203), (9, [77, 68, 66, 0], 0x010203)] ∧
    ((exStart.bind fun s => run env s [.table (.silentAwake 0 0), .frame 0 2 8 0x002 [1, 0, 0, 0, 0, 0, 0, 0]]).map fun s =>
      (framesOf s.node.log).reverse.filterMap readStatus) = some [(9, [77, 68, 66, 0], 0x010203)] := by decide +kernel

/-- C26.  The two version messages decode to the versions, the ident number and the low 24 bits of the
change index they were built from. -/
theorem C26_version_round_trip (bMaj bMin sMaj sMin ident change : Nat) (h1 : bMaj < 2 ^ 8) (h2 : bMin < 2 ^ 16)
    (h3 : sMaj < 2 ^ 8) (h4 : sMin < 2 ^ 16) (h5 : ident < 2 ^ 32) :
    readVersion1 (version1Bytes bMaj bMin sMaj sMin) = some ((bMaj, bMin), (sMaj, sMin)) ∧
    readVersion2 (version2Bytes ident change) = some (ident, change % 2 ^ 24) := by
  constructor
  · simp only [version1Bytes, readVersion1, bigEndian, List.foldl_cons, List.foldl_nil, byteOf_toNat]
    congr 2 <;> congr 1 <;> omega
  · simp only [version2Bytes, readVersion2, bigEndian, List.foldl_cons, List.foldl_nil, byteOf_toNat]
    congr 2 <;> omega

/-- C26.  A version request to all: every awake registered module sends the two version messages, in
table order, on its own identifier, and they decode to the device's versions. -/
theorem C26_version_frames (env : Env) (he : EnvOk env) (s : Slave) (hs : SReach env s) (src : List Byte)
    (hc : at8 src 0 = 5) (hm0 : s.node.nrMod ≠ 0) (hm : s.link.mode ≠ .listen) :
    ∃ (s' : Slave) (ans : List Frame), sysMsg env s 1 8 src = some (s', E.ok) ∧
      framesOf s'.node.log = ans.reverse ++ framesOf s.node.log ∧
      ans.map (fun f => (f.dlc, f.id / 4 + 1, readVersion1 f.data, readVersion2 f.data)) =
        ((List.range s.node.nrMod).filter fun i => s.node.silent i == 1).flatMap fun i =>
          [(8, (s.node.rows i).nr, some ((env.boot.1 % 2 ^ 8, env.boot.2 % 2 ^ 16), (env.soft.1 % 2 ^ 8, env.soft.2 % 2 ^ 16)), none),
           (8, (s.node.rows i).nr, none, some (env.ident.1 % 2 ^ 32, env.ident.2 % 2 ^ 24))] := by
  have hi := (hs.inv he).2
  have key : sysMsg env s 1 8 src = some (forRows (versionAckn env) (List.range s.node.nrMod) s) := by
    unfold sysMsg
    rw [if_neg (by simp)]
    simp only
    rw [if_neg (by simp), if_neg (by simp [hm0]), hc]
    simp
  have := forRows_frames (env := env) (f := versionAckn env)
    (g := fun n i => sysFrames env n (n.rows i).nr (version1Bytes (u8 env.boot.1) (u16 env.boot.2) (u8 env.soft.1) (u16 env.soft.2)) ++
      sysFrames env n (n.rows i).nr (version2Bytes (u32 env.ident.1) (u32 env.ident.2)))
    (fun s i h1 h2 => by
      have := versionAckn_frames env s i h1 h2
      refine ⟨?_, this.2⟩
      rw [this.1, List.reverse_append, List.append_assoc]
      have hrev : ∀ nr d, (sysFrames env s.node nr d).reverse = sysFrames env s.node nr d := by
        intro nr d; unfold sysFrames; split <;> rfl
      rw [hrev, hrev])
    (versionAckn_sentOnly env) (fun n n' i l => by rw [sysFrames_light l, sysFrames_light l, l.rows])
    (List.range s.node.nrMod) s hm (fun i h => by have := List.mem_range.1 h; have := hi.nrMod; omega)
  refine ⟨(forRows (versionAckn env) (List.range s.node.nrMod) s).1, _, by rw [key, ← this.2], this.1, ?_⟩
  have hmem : ∀ i ∈ List.range s.node.nrMod, i < s.node.nrMod := fun i h => List.mem_range.1 h
  generalize List.range s.node.nrMod = l at hmem
  induction l with
  | nil => rfl
  | cons i l ih =>
    have reg := hi.reg (hmem i (by simp))
    have hb := hi.registered he reg
    have m8 := he.m8
    rw [List.flatMap_cons, List.map_append, ih (fun j hj => hmem j (by simp [hj]))]
    unfold sysFrames
    rw [hi.awake reg]
    by_cases ha : s.node.silent i == 1
    · rw [if_pos ha, List.filter_cons_of_pos (p := fun i => s.node.silent i == 1) ha, List.flatMap_cons]
      obtain ⟨r1, -⟩ := C26_version_round_trip (u8 env.boot.1) (u16 env.boot.2) (u8 env.soft.1) (u16 env.soft.2) 0 0
        (Nat.mod_lt _ (by decide)) (Nat.mod_lt _ (by decide)) (Nat.mod_lt _ (by decide)) (Nat.mod_lt _ (by decide)) (by decide)
      obtain ⟨-, r2⟩ := C26_version_round_trip 0 0 0 0 (u32 env.ident.1) (u32 env.ident.2) (by decide) (by decide)
        (by decide) (by decide) (Nat.mod_lt _ (by decide))
      have hid : sysTxId (s.node.rows i).nr / 4 + 1 = (s.node.rows i).nr := by
        unfold sysTxId idOf; omega
      have hu : u32 env.ident.2 % 2 ^ 24 = env.ident.2 % 2 ^ 24 := by unfold u32; omega
      rw [hu] at r2
      simp only [List.map_cons, List.map_nil, List.cons_append, List.nil_append, if_pos ha, r1, r2, hid]
      rfl
    · rw [if_neg ha, if_neg ha, List.filter_cons_of_neg (p := fun i => s.node.silent i == 1) ha]; rfl

example : let env : Env := { exEnv with boot := (1, 0x203), soft := (4, 0x506), ident := (0x789ABCDE, 7) }
    ((exStart.bind fun s => run env s [.frame 0 2 8 0x002 [5, 0, 0, 0, 0, 0, 0, 0]]).map fun s =>
      (framesOf s.node.log).reverse.map fun f => (f.id, f.data)) =
      some [(0x013, [5, 1, 2, 3, 0, 4, 5, 6]), (0x013, [6, 0x78, 0x9A, 0xBC, 0xDE, 0, 0, 7]),
            (0x023, [5, 1, 2, 3, 0, 4, 5, 6]), (0x023, [6, 0x78, 0x9A, 0xBC, 0xDE, 0, 0, 7])] := by decide +kernel

/-- C26.  An error message decodes to the message code, information byte, priority and group of the
queued error. -/
theorem C26_error_round_trip (e : ErrEntry) (h : e.prio < 256) :
    readError (errorBytes e) = some (e.msgCode.toNat, e.addInfo.toNat, e.prio, e.group.toNat) := by
  have h1 := e.msgCode.isLt
  have h : @LT.lt Nat _ e.prio 256 := h
  have h2 := e.addInfo.isLt
  have h3 := e.group.isLt
  simp only [errorBytes, readError, bigEndian, List.foldl_cons, List.foldl_nil, byteOf_toNat, Nat.pow_zero, Nat.div_one]
  congr 2
  · omega
  · congr 1
    · omega
    · congr 1 <;> omega

/-- C26.  The system time handed to the registered callback is what the message says: big-endian
seconds, signed zone, daylight saving flag; nothing else happens. -/
theorem C26_system_time (env : Env) (s : Slave) (nr : Nat) (b1 t3 t2 t1 t0 z d : Byte) (f : Nat)
    (hf : s.sys.timeCb = some f)
    (ha : (nr = 1 ∧ s.node.nrMod ≠ 0) ∨ (nr ≠ 1 ∧ s.node.findNr env nr ≠ none)) :
    sysMsg env s nr 8 [7, b1, t3, t2, t1, t0, z, d] = some
      ({ s with node := { s.node with log := .timeCb f (bigEndian [t3, t2, t1, t0]) z.toBitVec.toInt (d != 0) :: s.node.log } }, E.ok) := by
  have hd : ¬ (nr ≠ 1 ∧ (if nr = 1 then none else findNr env s.node nr) = none) := by
    rcases ha with ⟨a, -⟩ | ⟨a, b⟩
    · simp [a]
    · rw [if_neg a]; simp [b]
  have hd2 : ¬ (nr = 1 ∧ s.node.nrMod = 0) := by rcases ha with ⟨a, b⟩ | ⟨a, b⟩ <;> simp [a, b]
  unfold sysMsg
  rw [if_neg (by simp)]
  simp only
  rw [if_neg hd, if_neg hd2]
  have hc : at8 [7, b1, t3, t2, t1, t0, z, d] 0 = 7 := rfl
  rw [hc]
  simp only [hf]
  have e1 : at8 [7, b1, t3, t2, t1, t0, z, d] 2 * 16777216 + at8 [7, b1, t3, t2, t1, t0, z, d] 3 * 65536 +
      at8 [7, b1, t3, t2, t1, t0, z, d] 4 * 256 + at8 [7, b1, t3, t2, t1, t0, z, d] 5 = bigEndian [t3, t2, t1, t0] := by
    simp only [at8, bigEndian, List.getD_cons_succ, List.getD_cons_zero, List.foldl_cons, List.foldl_nil]
    omega
  have e2 : (if at8 [7, b1, t3, t2, t1, t0, z, d] 6 < 128 then (at8 [7, b1, t3, t2, t1, t0, z, d] 6 : Int)
      else (at8 [7, b1, t3, t2, t1, t0, z, d] 6 : Int) - 256) = z.toBitVec.toInt := by
    show (if z.toNat < 128 then (z.toNat : Int) else (z.toNat : Int) - 256) = _
    rw [BitVec.toInt_eq_toNat_cond]
    have hz : z.toBitVec.toNat = z.toNat := rfl
    rw [hz]
    have := z.toNat_lt
    by_cases h : z.toNat < 128
    · rw [if_pos h, if_pos (by omega)]
    · rw [if_neg h, if_neg (by omega)]; rfl
  have e3 : (at8 [7, b1, t3, t2, t1, t0, z, d] 7 != 0) = (d != 0) := by
    show (d.toNat != 0) = (d != 0)
    rw [Bool.eq_iff_iff]
    simp only [bne_iff_ne, ne_eq]
    rw [← UInt8.toNat_inj]
    simp
  rw [e1, e2, e3]

/-- 1 January 2020, zone -2, daylight saving time -/
example : ((exStart.bind fun s => run exEnv s [.timeCb (some 3),
      .frame 0 2 8 0x002 [7, 0, 0x5E, 0x0B, 0xE1, 0x00, 0xFE, 1]]).map fun s =>
        match s.node.log with
        | .timeCb f t z d :: _ => (f, t, z, d)
        | _ => (0, 0, 0, false)) = some (3, 1577836800, -2, true) := by decide +kernel

/-- C27.  A status request (to all or to a number in the table) ends, empties the error queue and
hands to the driver, after the answers, one message per queued error, oldest first.  Each is sent for
the number stored with the error (the number of the first module if that is out of range) and decodes
to the stored error.  An error whose number is not in the table or whose module is silent is removed
from the queue without being sent. -/
theorem C27_errors_reported_partial (env : Env) (he : EnvOk env) (s : Slave) (hs : SReach env s) (nr : Nat)
    (src : List Byte) (hc : at8 src 0 = 1) (hse : env.sysErr = true)
    (hm0 : s.node.nrMod ≠ 0) (ha : nr = 1 ∨ (nr ≠ 1 ∧ knownNr env s.node nr = true)) :
    ∃ (s' : Slave) (errs ans : List Frame), sysMsg env s nr 8 src = some (s', E.ok) ∧ s'.node.errq.getCount = 0 ∧
      framesOf s'.node.log = errs.reverse ++ (ans ++ framesOf s.node.log) ∧
      (∀ f ∈ ans, f.data.head? = some 0x04) ∧
      ((∀ x ∈ pending env.qSize s.node.errq, x.prio < 256) →
        errs.map readErrorFrame =
          ((pending env.qSize s.node.errq).filter fun x => awakeNr env s.node
            (if 2 ≤ x.moduleNr ∧ x.moduleNr ≤ 124 then x.moduleNr else (s.node.rows 0).nr)).map fun x =>
          some (if 2 ≤ x.moduleNr ∧ x.moduleNr ≤ 124 then x.moduleNr else (s.node.rows 0).nr,
            x.msgCode.toNat, x.addInfo.toNat, x.prio, x.group.toNat)) := by
  have hv := (hs.inv he).2
  have ha' : (nr = 1 ∧ s.node.nrMod ≠ 0) ∨ (nr ≠ 1 ∧ s.node.findNr env nr ≠ none) := by
    rcases ha with h | ⟨h, h'⟩
    · exact .inl ⟨h, hm0⟩
    · exact .inr ⟨h, fun e => by rw [(knownNr_iff ..).2 e] at h'; cases h'⟩
  have hreg0 : s.node.nrMod ≠ 0 → 1 ≤ (s.node.rows 0).nr ∧ (s.node.rows 0).nr ≤ 132 := by
    intro h
    have := hv.registered he (hv.reg (i := 0) (by omega))
    have := he.m8
    omega
  obtain ⟨s', h1, h2, h3, -⟩ := status_frames hv hs.queue nr src hc ha'
  refine ⟨s', _, _, h1, h3 hse, h2, ?_, ?_⟩
  · intro f hf
    rw [List.mem_reverse] at hf
    split at hf
    · cases hf
    · simp only [List.mem_flatMap] at hf
      obtain ⟨i, hi, hf⟩ := hf
      unfold sysFrames at hf
      split at hf
      · simp only [List.mem_singleton] at hf
        subst hf
        rfl
      · cases hf
  · intro hp
    rw [hse]
    simp only [if_true]
    generalize pending env.qSize s.node.errq = l at hp ⊢
    induction l with
    | nil => rfl
    | cons x l ih =>
      rw [List.flatMap_cons, List.map_append, ih (fun y hy => hp y (by simp [hy]))]
      have hnr : errNr s.node x = if 2 ≤ x.moduleNr ∧ x.moduleNr ≤ 124 then x.moduleNr else (s.node.rows 0).nr := by
        unfold errNr; split <;> split <;> first | rfl | omega
      unfold errFrames sysFrames
      rw [hnr]
      generalize hnn : (if 2 ≤ x.moduleNr ∧ x.moduleNr ≤ 124 then x.moduleNr else (s.node.rows 0).nr) = m
      by_cases hw : awakeNr env s.node m = true
      · rw [if_pos hw, List.filter_cons_of_pos (by rw [hnn]; exact hw), List.map_cons, List.map_cons, hnn]
        have hm : 1 ≤ m ∧ m ≤ 132 := by
          have := hreg0 hm0
          split at hnn <;> omega
        have : readErrorFrame ⟨sysTxId m, 8, errorBytes x⟩ =
            some (m, x.msgCode.toNat, x.addInfo.toNat, x.prio, x.group.toNat) := by
          unfold readErrorFrame
          rw [C26_error_round_trip x (hp x (by simp))]
          have hid : sysTxId m = 4 * (m - 1) + 3 := by unfold sysTxId idOf; omega
          rw [hid]
          simp only
          rw [if_pos ⟨trivial, by omega⟩]
          simp only [Option.map_some]
          congr 2; omega
        simp only [List.map_cons, List.map_nil, List.singleton_append, this]
      · rw [if_neg hw, List.filter_cons_of_neg (by rw [hnn]; exact hw)]; rfl

/-- C27.  The waiting errors are those of the FIFO specification of C19 for every history of reports
and retrievals that does not overrun the queue. -/
theorem C27_pending_is_fifo (sz : Nat) (h : List ErrOp) (hno : overruns sz {} false h = false) :
    pending sz (ErrQ.boot.run sz h).1 = (Fifo.run sz {} h).1.items := by
  obtain ⟨_, e, hs⟩ := errSim_run h (errSim_boot sz) hno
  generalize (ErrQ.boot.run sz h).1 = q at hs
  generalize (Fifo.run sz {} h).1 = f at hs
  unfold pending ErrQ.getCount
  rw [hs.ready]
  cases hst : f.started
  · simp [(hs.fresh hst).1]
  · simp only [if_true, hs.count hst]
    apply List.ext_getElem
    · simp
    · intro i h1 h2
      simp only [List.getElem_map, List.getElem_range]
      exact hs.cont hst i h2

/-- two errors and a status request to module 9 -/
example : ((exStart.map fun s => { s with node := ((s.node.report exEnv 0x503B#16).report exEnv 0x5065#16) }).bind fun s =>
      run exEnv s [.frame 0 2 8 0x022 [1, 0, 0, 0, 0, 0, 0, 0]]).map (fun s =>
      (framesOf s.node.log).reverse.filterMap readErrorFrame) =
    some [(5, 0x7500003B, 0, 4, 0x75), (5, 0x75000065, 0, 4, 0x75)] := by decide +kernel

/-- C27 as stated is false: an error reported while its module was awake is dropped by a status request
to another module once the reporting module is silent. -/
theorem C27_counterexample : ∃ s, SReach exEnv s ∧ (pending exEnv.qSize s.node.errq).length = 1 ∧
    ∃ s', sysMsg exEnv s 9 8 [1, 0, 0, 0, 0, 0, 0, 0] = some (s', E.ok) ∧
      (pending exEnv.qSize s'.node.errq).length = 0 ∧
      ((framesOf s'.node.log).filterMap readErrorFrame).length = 0 := by
  have key : ((run exEnv (Slave.init exEnv (Slave.boot exMem) 250).1
      ((exOps.map In.table) ++ [.frame 0 2 7 0x012 [], .table (.silentAwake 0 0)])).bind fun s =>
      (sysMsg exEnv s 9 8 [1, 0, 0, 0, 0, 0, 0, 0]).map fun r =>
        ((pending exEnv.qSize s.node.errq).length, r.2, (pending exEnv.qSize r.1.node.errq).length,
          ((framesOf r.1.node.log).filterMap readErrorFrame).length)) = some (1, E.ok, 0, 0) := by decide +kernel
  obtain ⟨s, h1, h2⟩ := Option.bind_eq_some_iff.1 key
  obtain ⟨⟨s', e⟩, h3, h4⟩ := Option.map_eq_some_iff.1 h2
  simp only [Prod.mk.injEq] at h4
  obtain ⟨a, rfl, c, d⟩ := h4
  refine ⟨s, ⟨exMem, 250, _, by decide +kernel, ?_, h1⟩, a, s', h3, c, d⟩
  intro i hi
  simp only [exOps, List.map_cons, List.map_nil, List.cons_append, List.nil_append, List.mem_cons, List.not_mem_nil,
    or_false] at hi
  rcases hi with h | h | h | h <;> rw [h] <;> simp [BasicIn, Basic, exTpl, at8]

/-! ## C51 -/

theorem rand_gen (x : Nat) : u32 (x * 65536) % 104 < 104 ∧ 8 ∣ u32 (x * 65536) % 104 := by
  unfold u32
  constructor
  · exact Nat.mod_lt _ (by decide)
  · omega

/-- C51.  The delay is below 104 and a multiple of 8: only 13 different delays occur. -/
theorem C51_delay_bounded (v : Nat) : (rand v).2 < 104 ∧ 8 ∣ (rand v).2 := rand_gen _

example : (rand 4711).2 = 8 := by decide +kernel

end Slave
end LiCan
