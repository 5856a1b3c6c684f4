import Verif.Props.Tunnel
/-! # What is answered: version, upload info, download start, tunnel open (C66 - C68) -/
namespace LiCan
namespace Spec

/-- the answer to a version request -/
def versionMsg (index : Byte) (crc dlId : Nat) : List Byte := 0x18 :: index :: (bytes 2 crc ++ bytes 4 dlId)

/-- the answer to an upload info request -/
def infoMsg (index : Byte) (size : Nat) : List Byte := 0x53 :: index :: (bytes 4 size ++ [0, 0])

/-- the acknowledge of a download: at most `m` bytes per block, no delay between the messages -/
def startMsg (m : Nat) : List Byte := 0x19 :: (bytes 2 m ++ [0, 0, 0, 0, 0])

end Spec
namespace Stack
open Spec
open Slave (at8 byteOf)

variable {env : AEnv}

theorem digit_byte (v n : Nat) : UInt8.ofNat (v / 256 ^ n % 256) = byteOf v n := by
  unfold byteOf
  apply UInt8.toNat_inj.1
  simp

theorem bytes_two (v : Nat) : bytes 2 v = [byteOf v 1, byteOf v 0] := by
  simp only [bytes, digits, List.map_cons, List.map_nil, digit_byte]

theorem bytes_four (v : Nat) : bytes 4 v = [byteOf v 3, byteOf v 2, byteOf v 1, byteOf v 0] := by
  simp only [bytes, digits, List.map_cons, List.map_nil, digit_byte]

/-! ## C66 -/

/-- the version handler answers in its component -/
theorem versionPre_answer (s : Stack) (nr f : Nat) (hf : s.x.hnd .dlVersion = some f) (h1 : 1 ≤ nr) (h2 : nr < 16000)
    (g : Component → Component) (c : Component) (hc : c = { s.x.vcomp with nr := nr })
    (he : (env.reply s.callN (.hnd .dlVersion f c)).err = E.ok)
    (hs : (env.reply s.callN (.hnd .dlVersion f c)).stackEnd = true)
    (ha : (env.reply s.callN (.hnd .dlVersion f c)).acts = [.editVer g]) :
    ∃ ok, logOf (s.versionPre env nr).1 =
      .frame (ctrlFrame nr (versionMsg (g c).index (g c).crc (g c).dlId)) ok :: .app (.hnd .dlVersion f c) :: logOf s := by
  unfold versionPre
  simp only [hf, reduceCtorEq, if_false]
  unfold callHnd callApp
  have hx : (s.setX fun x => { x with vcomp := { x.vcomp with nr := nr } }).x.vcomp = c := hc.symm
  have hh : (s.setX fun x => { x with vcomp := { x.vcomp with nr := nr } }).x.hnd .dlVersion = some f := hf
  have hn : (s.setX fun x => { x with vcomp := { x.vcomp with nr := nr } }).callN = s.callN := rfl
  rw [hx, hh]
  dsimp only
  rw [hn, he, hs, ha, if_pos rfl, if_pos rfl]
  unfold versionAnswer versionMsg
  rw [bytes_two, bytes_four, ctrlTx_log env _ nr _ h1 h2]
  subst hc
  exact ⟨_, rfl⟩

/-- the info handler answers with the size -/
theorem infoPre_answer (s : Stack) (nr f : Nat) (hf : s.x.hnd .ulInfo = some f) (h1 : 1 ≤ nr) (h2 : nr < 16000)
    (c : Component) (hc : c = { s.x.comp with nr := nr })
    (he : (env.reply s.callN (.hnd .ulInfo f c)).err = E.ok)
    (hs : (env.reply s.callN (.hnd .ulInfo f c)).stackEnd = true)
    (ha : (env.reply s.callN (.hnd .ulInfo f c)).acts = []) :
    ∃ ok, logOf (s.infoPre env nr).1 =
      .frame (ctrlFrame nr (infoMsg c.index (env.reply s.callN (.hnd .ulInfo f c)).size)) ok ::
        .app (.hnd .ulInfo f c) :: logOf s := by
  unfold infoPre
  simp only [hf, reduceCtorEq, if_false]
  unfold callHnd callApp
  have hx : (s.setX fun x => { x with comp := { x.comp with nr := nr } }).x.comp = c := hc.symm
  have hh : (s.setX fun x => { x with comp := { x.comp with nr := nr } }).x.hnd .ulInfo = some f := hf
  have hn : (s.setX fun x => { x with comp := { x.comp with nr := nr } }).callN = s.callN := rfl
  rw [hx, hh]
  dsimp only
  rw [hn, he, hs, ha, if_pos rfl, if_pos rfl]
  unfold infoAnswer infoMsg
  rw [bytes_four, ctrlTx_log env _ nr _ h1 h2]
  subst hc
  exact ⟨_, rfl⟩

/-- **C66** (version, short name).  The handler is called with the requested component; if it fills in
checksum and identifier and accepts, exactly one message is sent: it carries the index of the request
and checksum and identifier with the most significant byte first. -/
theorem C66_version (s : Stack) (nr tp f : Nat) (ha : Addressed env s nr tp) (h1 : 1 ≤ nr) (h2 : nr < 16000)
    (hf : s.x.hnd .dlVersion = some f) (idx : Byte) (cs : List Nat) (h8 : cs.length = 8) (h6 : ∀ c ∈ cs, c < 64)
    (crc dlId : Nat)
    (hr : ∀ k c, env.reply k (.hnd .dlVersion f c) =
      { err := E.ok, stackEnd := true, acts := [.editVer fun c => { c with crc := crc, dlId := dlId }] }) :
    ∃ ok c, logOf (s.asyncRx env nr (0x10 :: idx :: packName cs)).1 =
        .frame (ctrlFrame nr (versionMsg idx crc dlId)) ok :: .app (.hnd .dlVersion f c) :: logOf s ∧
      c.name = nameText cs ∧ c.index = idx ∧ c.nr = nr := by
  rw [asyncRx_eq ha]
  obtain ⟨ok, e⟩ := versionPre_answer (env := env) (s.setX fun x => { x with vcomp := { x.vcomp with
    index := b8 (0x10 :: idx :: packName cs) 1, name := shortName (0x10 :: idx :: packName cs) } }) nr f hf h1 h2
    (fun c => { c with crc := crc, dlId := dlId }) _ rfl (by rw [hr]) (by rw [hr]) (by rw [hr])
  exact ⟨ok, _, e, shortName_pack _ _ _ h8 h6, rfl, rfl⟩

/-- **C66** (version, long name).  The same for a name of eight arbitrary bytes sent in two messages: six
bytes and the index in the first one, two bytes in the second one. -/
theorem C66_version_long (s : Stack) (nr tp f : Nat) (ha : Addressed env s nr tp) (h1 : 1 ≤ nr) (h2 : nr < 16000)
    (hf : s.x.hnd .dlVersion = some f) (idx x : Byte) (a : List Byte) (b : List Byte) (r : List Byte)
    (h6 : a.length = 6) (hb : b.length = 2) (crc dlId : Nat)
    (hr : ∀ k c, env.reply k (.hnd .dlVersion f c) =
      { err := E.ok, stackEnd := true, acts := [.editVer fun c => { c with crc := crc, dlId := dlId }] }) :
    ∃ ok c, logOf (recv env nr s [0x11 :: idx :: a, 0x12 :: x :: (b ++ r)]) =
        .frame (ctrlFrame nr (versionMsg idx crc dlId)) ok :: .app (.hnd .dlVersion f c) :: logOf s ∧
      c.name = a ++ b ∧ c.index = idx ∧ c.nr = nr := by
  simp only [recv]
  have e1 : s.asyncRx env nr (0x11 :: idx :: a) = (s.versionLong1 (0x11 :: idx :: a), E.ok) := by
    rw [asyncRx_eq ha]; rfl
  rw [e1]
  dsimp only
  have ha' : Addressed env (s.versionLong1 (0x11 :: idx :: a)) nr tp := ha
  rw [asyncRx_eq ha']
  obtain ⟨ok, e⟩ := versionPre_answer (env := env) ((s.versionLong1 (0x11 :: idx :: a)).setX fun y => { y with vcomp := { y.vcomp with
    name := y.vcomp.name.take 6 ++ slice (0x12 :: x :: (b ++ r)) 2 2 } }) nr f hf h1 h2
    (fun c => { c with crc := crc, dlId := dlId }) _ rfl (by rw [hr]) (by rw [hr]) (by rw [hr])
  refine ⟨ok, _, e, ?_, rfl, rfl⟩
  match a, h6, b, hb with
  | [a0, a1, a2, a3, a4, a5], _, [b0, b1], _ => rfl

/-- **C66** (upload info).  The answer carries the index of the request and the size the handler returned. -/
theorem C66_info (s : Stack) (nr tp f : Nat) (ha : Addressed env s nr tp) (h1 : 1 ≤ nr) (h2 : nr < 16000)
    (hf : s.x.hnd .ulInfo = some f) (idx : Byte) (cs : List Nat) (h8 : cs.length = 8) (h6 : ∀ c ∈ cs, c < 64)
    (size : Nat)
    (hr : ∀ k c, env.reply k (.hnd .ulInfo f c) = { err := E.ok, stackEnd := true, size := size }) :
    ∃ ok c, logOf (s.asyncRx env nr (0x50 :: idx :: packName cs)).1 =
        .frame (ctrlFrame nr (infoMsg idx size)) ok :: .app (.hnd .ulInfo f c) :: logOf s ∧
      c.name = nameText cs ∧ c.index = idx ∧ c.nr = nr := by
  rw [asyncRx_eq ha]
  obtain ⟨ok, e⟩ := infoPre_answer (env := env) (s.setX fun x => { x with comp := { x.comp with
    index := b8 (0x50 :: idx :: packName cs) 1, name := shortName (0x50 :: idx :: packName cs) } }) nr f hf h1 h2
    _ rfl (by rw [hr]) (by rw [hr]) (by rw [hr])
  rw [hr] at e
  exact ⟨ok, _, e, shortName_pack _ _ _ h8 h6, rfl, rfl⟩

/-! ## C67 -/

/-- **C67**.  `li_can_slv_dload_start`, accepted by the application: the acknowledge announces a number `m` of
bytes per block such that every block of at most `m` bytes, sent in messages of seven bytes, is received
without any refusal: after the data messages nothing was sent or called, and the buffer holds exactly
the bytes sent, whatever it held before the start. -/
theorem C67_announced (s : Stack) (c : Component) (tp f : Nat) (hf : s.x.hnd .dlStart = some f)
    (h1 : 1 ≤ c.nr) (h2 : c.nr < 16000) (hB : env.bufSize < 65536) (hB0 : 56 ≤ env.bufSize)
    (ha : Addressed env s c.nr tp)
    (he : (env.reply s.callN (.hnd .dlStart f c)).err = E.ok) :
    let s' := (s.dlStart env c).1
    ∃ m ok l, env.bufSize ≤ m + 56 ∧
      logOf s' = .frame (ctrlFrame c.nr (startMsg m)) ok :: (l ++ .app (.hnd .dlStart f c) :: logOf s) ∧
      ∀ segs : List (List Byte), (∀ g ∈ segs, g.length = 7) → 7 * segs.length < m + 7 →
        ∃ b, XBuf.Holds env.bufSize b segs.flatten ∧
          recv env c.nr s' (segs.map dataMsg) =
            s'.setX fun x => { x with buf := b, objs := segs.length, bytes := segs.flatten.length } := by
  intro s'
  obtain ⟨l, hl⟩ := callHnd_log env (s.setX fun x => { x with busy := true }) .dlStart f c hf
  have hq := Quiet.callHnd env (s.setX fun x => { x with busy := true }) .dlStart c
  have he' : (callHnd env (s.setX fun x => { x with busy := true }) .dlStart c).2.err = E.ok := by
    unfold callHnd
    rw [show (s.setX fun x => { x with busy := true }).x.hnd .dlStart = some f from hf]
    exact he
  have hs' : s' = ((callHnd env (s.setX fun x => { x with busy := true }) .dlStart c).1).startAckn env c.nr
      (u16 (env.bufSize - 56)) 0 := by
    show (s.dlStart env c).1 = _
    unfold dlStart
    dsimp only
    rw [if_pos he']
  generalize callHnd env (s.setX fun x => { x with busy := true }) .dlStart c = r at hl hq he' hs'
  obtain ⟨k1, k2, k3⟩ := startAckn_clean env r.1 c.nr (u16 (env.bufSize - 56)) 0 (by omega)
  have hu : u16 (env.bufSize - 56) = env.bufSize - 56 := Nat.mod_eq_of_lt (by omega)
  have hlog : logOf s' = .frame (ctrlFrame c.nr (startMsg (env.bufSize - 56)))
      (env.sendOk r.1.slv.node.sendN) :: logOf r.1 := by
    rw [hs', hu]
    unfold startAckn startMsg
    rw [bytes_two]
    exact ctrlTx_log env _ c.nr _ h1 h2
  have hq' : Quiet s s' := by
    rw [hs']
    refine ((Quiet.setX s (fun x => { x with busy := true }) ?_).trans hq).startA env c.nr _ 0
    exact fun _ => rfl
  have ha' : Addressed env s' c.nr tp := ha.quiet hq'.node.light
  rw [hs'] at hlog ha' ⊢
  refine ⟨env.bufSize - 56, _, l, by omega, by rw [hlog]; exact congrArg _ hl, ?_⟩
  intro segs h7 hm
  have hlen : segs.flatten.length = 7 * segs.length := by
    clear hm
    induction segs with
    | nil => rfl
    | cons g gs ih =>
      have := ih fun g' h' => h7 g' (by simp [h'])
      have := h7 g (by simp)
      simp only [List.flatten_cons, List.length_append, List.length_cons]
      omega
  obtain ⟨b, hb, e⟩ := recv_data env c.nr tp segs _ [] ha' h7 k1 (by simp only [List.length_nil]; omega)
    (by rw [k2]; omega) (by rw [k3]; omega)
  refine ⟨b, by simpa using hb, ?_⟩
  rw [e]
  simp only [setX, k2, k3, Nat.zero_add]

/-! ## C68 -/

/-- **C68**, what holds: an open request is granted; if the driver takes the definition, the data object then
receives exactly the frames with the identifier of data to module `nr`; if not, it keeps its old filter. -/
theorem C68_partial (s : Stack) (nr tp : Nat) (p d1 d0 a b c : Byte) (ha : Addressed env s nr tp)
    (h1 : 1 ≤ nr) (h2 : nr ≤ 128) (h6 : 6 < env.nObj) (hs : s.tnl.state = .free)
    (ho : (env.reply s.callN .tnlOpen).err = E.ok) :
    let s' := (s.asyncRx env nr (openMsg p 0 d1 d0 a b c)).1
    if env.hwOk s.slv.node.hw.cfgN then
      ∃ d, s'.slv.node.hw.defs 6 = some d ∧ ∀ id < 0x800,
        (hwAccepts (BitVec.ofNat 16 d.id) d.mask (BitVec.ofNat 16 id) = true ↔ id = 0x602 + 4 * (nr - 1))
    else s'.slv.node.hw.defs = s.slv.node.hw.defs := by
  intro s'
  have hq := Quiet.callPort env s .tnlOpen
  have hs' : s' = (s.tnlOpen env nr (openMsg p 0 d1 d0 a b c)).1 := by
    show (s.asyncRx env nr _).1 = _
    rw [asyncRx_eq ha]
    rfl
  have he : (s.callPort env .tnlOpen).2 = E.ok := ho
  rw [hs']
  unfold tnlOpen
  rw [if_pos hs]
  have hhw := hq.node.light.hw
  generalize s.callPort env .tnlOpen = r at hq he hhw ⊢
  dsimp only
  rw [if_pos he, if_pos (show at8 (openMsg p 0 d1 d0 a b c) 4 = 0 from rfl)]
  dsimp only
  have hcx : ∀ (t : Stack) (d : List Byte), (t.ctrlTx env nr d).slv.node.hw = t.slv.node.hw := fun _ _ => rfl
  unfold tnlOpenAck
  rw [hcx]
  show if _ then (∃ d, (Node.define env.toEnv r.1.slv.node 6 _).1.hw.defs 6 = some d ∧ _)
    else (Node.define env.toEnv r.1.slv.node 6 _).1.hw.defs = _
  unfold Node.define
  rw [if_neg (show ¬ env.nObj ≤ 6 by omega), hhw]
  by_cases hok : env.hwOk s.slv.node.hw.cfgN = true
  · rw [if_pos hok, if_pos hok]
    refine ⟨⟨idOf 0x602 nr 0, 0x07FF#16, 8, .asyncRx⟩, upd_same s.slv.node.hw.defs 6 _, ?_⟩
    intro id hid
    have hi : idOf 0x602 nr 0 = 0x602 + 4 * (nr - 1) := by
      unfold idOf; omega
    dsimp only
    rw [hi]
    simp only [hwAccepts, beq_iff_eq]
    constructor
    · intro h
      have := congrArg BitVec.toNat h
      simp only [BitVec.toNat_and, BitVec.toNat_ofNat] at this
      have m : ∀ x : Nat, x &&& 2047 = x % 2048 := fun x => Nat.and_two_pow_sub_one_eq_mod x 11
      rw [show 0x07FF % 2 ^ 16 = 2047 from rfl, m, m] at this
      omega
    · rintro rfl; rfl
  · rw [if_neg hok, if_neg hok]

/-! ## Cases -/

/-- the application knows checksum and identifier of its component and the size of the upload -/
def exA3 : AEnv := { exA with reply := fun _ c => match c with
  | .hnd .dlVersion _ _ => { err := E.ok, stackEnd := true, acts := [.editVer fun c => { c with crc := 0x1234, dlId := 0x56789ABC }] }
  | .hnd .ulInfo _ _ => { err := E.ok, stackEnd := true, size := 70000 }
  | _ => {} }

/-- C66 -/
example : Addressed exA3 exS 5 0 ∧ exName.length = 8 ∧ (∀ c ∈ exName, c < 64) ∧ exS.x.hnd .dlVersion = some 11 ∧
    exS.x.hnd .ulInfo = some 15 ∧
    exFrames (recv exA3 5 exS [0x10 :: 7 :: packName exName, [0x11, 9, 65, 66, 67, 68, 69, 70], [0x12, 0, 71, 72, 0, 0, 0, 0],
        0x50 :: 8 :: packName exName]) =
      [⟨0x611, 8, [0x18, 7, 0x12, 0x34, 0x56, 0x78, 0x9A, 0xBC]⟩, ⟨0x611, 8, [0x18, 9, 0x12, 0x34, 0x56, 0x78, 0x9A, 0xBC]⟩,
       ⟨0x611, 8, [0x53, 8, 0, 1, 0x11, 0x70, 0, 0]⟩] := by decide +kernel

/-- C67: a buffer of 140 bytes, 84 bytes per block -/
example : Addressed exA exS 5 0 ∧ exA.bufSize = 140 ∧ exS.x.hnd .dlStart = some 10 ∧
    exFrames (exS.dlStart exA { nr := 5 }).1 = [⟨0x611, 8, [0x19, 0, 84, 0, 0, 0, 0, 0]⟩] := by decide +kernel

/-- C68 -/
example : Addressed exA exS 5 0 ∧ exS.tnl.state = .free ∧
    (exS.asyncRx exA 5 (openMsg 3 0 0 20 0 0 0)).1.slv.node.hw.defs 6 = some ⟨0x612, 0x7FF#16, 8, .asyncRx⟩ := by
  decide +kernel

/-- **C68** is false in general: the driver refuses the definition, the session is acknowledged all the
same, and the data object still receives the data of module 9 as well. -/
theorem C68_counterexample :
    let env : AEnv := { exA with hwOk := fun _ => false }
    let s' := (exS.asyncRx env 5 (openMsg 3 0 0 20 0 0 0)).1
    Addressed env exS 5 0 ∧ exFrames s' = [ctrlFrame 5 (openAck 3 0 20)] ∧ sessionOf s' = ⟨.active, 5, 3, 5, 0, 20⟩ ∧
    ∃ d, s'.slv.node.hw.defs 6 = some d ∧
      hwAccepts (BitVec.ofNat 16 d.id) d.mask (BitVec.ofNat 16 (0x602 + 4 * (9 - 1))) = true := by
  refine ⟨by decide +kernel, by decide +kernel, by decide +kernel, ?_⟩
  have : ∃ d, (exS.asyncRx { exA with hwOk := fun _ => false } 5 (openMsg 3 0 0 20 0 0 0)).1.slv.node.hw.defs 6 = some d := by
    refine Option.isSome_iff_exists.1 ?_
    decide +kernel
  obtain ⟨d, hd⟩ := this
  refine ⟨d, hd, ?_⟩
  have hm : ((exS.asyncRx { exA with hwOk := fun _ => false } 5 (openMsg 3 0 0 20 0 0 0)).1.slv.node.hw.defs 6).map (fun d =>
    hwAccepts (BitVec.ofNat 16 d.id) d.mask (BitVec.ofNat 16 (0x602 + 4 * (9 - 1)))) = some true := by decide +kernel
  rw [hd] at hm
  exact Option.some.inj hm

end Stack
end LiCan
