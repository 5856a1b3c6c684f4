import Verif.Model.Stack
/-!
# Downloads and uploads

Models source/xload/li_can_slv_xload.c (`OUTER_APP`, not `LI_CAN_SLV_BOOT`).
`can_config_module_nr_valid` always returns OK (io_can_config.c:1762-1791), so the branches testing its
return code are dead.
-/
namespace LiCan
namespace Stack
open Slave (at8 byteOf)

/-- change the transfer part -/
def setX (s : Stack) (f : XLoad → XLoad) : Stack := { s with x := f s.x }

/-! ## Messages sent -/

/-- `li_can_slv_dload_start_ackn`, li_can_slv_xload.c:158-187. -/
def startAckn (env : AEnv) (s : Stack) (nr maxBytes : Nat) (delay : Byte) : Stack :=
  let s := s.setX fun x =>
    { x with objs := 0, bytes := 0, buf := { x.buf with read := 0, write := 0, nr := 0 } }
  s.ctrlTx env nr [0x19, byteOf maxBytes 1, byteOf maxBytes 0, delay, 0, 0, 0, 0]

/-- `li_can_slv_dload_version_answer`, li_can_slv_xload.c:352-375. -/
def versionAnswer (env : AEnv) (s : Stack) (nr : Nat) (index : Byte) (crc dlId : Nat) : Stack :=
  s.ctrlTx env nr
    [0x18, index, byteOf crc 1, byteOf crc 0, byteOf dlId 3, byteOf dlId 2, byteOf dlId 1, byteOf dlId 0]

/-- `can_port_memory_set(&xload_component.name[0], 0, 8)` -/
def noName : List Byte := [0, 0, 0, 0, 0, 0, 0, 0]

/-- `li_can_slv_dload_end_ackn`, li_can_slv_xload.c:821-836. -/
def endAckn (env : AEnv) (s : Stack) (nr : Nat) : Stack :=
  let s := s.setX fun x => { x with comp := { x.comp with name := noName } }
  let s := s.ctrlTx env nr [0x1B, 0, 0, 0, 0, 0, 0, 0]
  s.setX fun x => { x with busy := false }

/-- `li_can_slv_dload_termination`, li_can_slv_xload.c:859-867: the message. -/
def termBytes (e : Err) : List Byte :=
  let m := canMsgCode e
  [0x1C, byteOf m.toNat 3, byteOf m.toNat 2, byteOf m.toNat 1, byteOf m.toNat 0, 0, 0,
   UInt8.ofNat ((0x70#8 ||| extractSubgroup m).toNat)]

/-- `li_can_slv_dload_termination`, li_can_slv_xload.c:846-871. -/
def termination (env : AEnv) (s : Stack) (nr : Nat) (e : Err) : Stack :=
  let s := s.setX fun x => { x with comp := { x.comp with name := noName } }
  let s := s.ctrlTx env nr (termBytes e)
  s.setX fun x => { x with busy := false }

/-- `li_can_slv_uload_info_answer`, li_can_slv_xload.c:916-939. -/
def infoAnswer (env : AEnv) (s : Stack) (nr : Nat) (index : Byte) (size : Nat) : Stack :=
  s.ctrlTx env nr [0x53, index, byteOf size 3, byteOf size 2, byteOf size 1, byteOf size 0, 0, 0]

/-- `li_can_slv_uload_end`, li_can_slv_xload.c:1183-1198. -/
def uloadEnd (env : AEnv) (s : Stack) (nr : Nat) : Stack :=
  s.ctrlTx env nr [0x17, 0, 0, 0, 0, 0, 0, 0]

/-- `li_can_slv_uload_data_block_end`, li_can_slv_xload.c:1206-1226 (the transmit function always
returns OK, so the loop runs once). -/
def uloadBlockEnd (env : AEnv) (s : Stack) (nr : Nat) : Stack :=
  s.ctrlTx env nr
    [0x16, byteOf s.x.bytes 1, byteOf s.x.bytes 0, byteOf s.x.objs 1, byteOf s.x.objs 0, 0, 0, 0]

/-- `dload_block_ackn`, li_can_slv_xload.c:1301-1312. -/
def blockAckn (env : AEnv) (s : Stack) (nr : Nat) : Stack :=
  s.ctrlTx env nr [0x1A, 0, 0, 0, 0, 0, 0, 0]

/-! ## Calls of the application -/

/-- One action of a handler. -/
def act (env : AEnv) (s : Stack) : Act → Stack
  | .startAckn nr m d => s.startAckn env nr m d
  | .endAckn nr => s.endAckn env nr
  | .termination nr e => s.termination env nr e
  | .versionAnswer nr i c d => s.versionAnswer env nr i c d
  | .infoAnswer nr i z => s.infoAnswer env nr i z
  | .uloadEnd nr => s.uloadEnd env nr
  | .get =>
    let r := s.x.buf.getByte env.bufSize
    (s.setX fun x => { x with buf := r.1 }).logCall (.got r.2.2)
  | .store => s.setX fun x => { x with buf := x.buf.store }
  | .restore => s.setX fun x => { x with buf := x.buf.restore }
  | .remove n => s.setX fun x => { x with buf := (x.buf.removeBytes env.bufSize n).1 }
  | .edit f => s.setX fun x => { x with comp := f x.comp }
  | .editVer f => s.setX fun x => { x with vcomp := f x.vcomp }

/-- The application is called, acts and returns. -/
def callApp (env : AEnv) (s : Stack) (c : ACall) : Stack × Reply :=
  let r := env.reply s.callN c
  (r.acts.foldl (act env) ({ s with callN := s.callN + 1 }.logCall c), r)

/-- `if (NULL != handler) rc = handler(..) else rc = ERR_MSG_CAN_DLOAD_UNKNOWN_COMPONENT`. -/
def callHnd (env : AEnv) (s : Stack) (h : Hnd) (c : Component) : Stack × Reply :=
  match s.x.hnd h with
  | some f => s.callApp env (.hnd h f c)
  | none => (s, { err := E.unknownComponent })

/-- The eight registration functions, li_can_slv_xload.c:193-340: all have the same body, the three
upload ones return another error number. -/
def setHnd (s : Stack) (h : Hnd) (f : Option Nat) : Stack × Err :=
  if s.x.hnd h = none then
    (s.setX fun x => { x with hnd := fun k => if k = h then f else x.hnd k }, E.ok)
  else
    (s, match h with
      | .ulInfo | .ulStart | .ulAck => E.uloadAddHandle
      | _ => E.dloadAddHandle)

/-! ## Requests -/

/-- `byte_t` read from the eight byte message -/
def b8 (src : List Byte) (i : Nat) : Byte := src.getD i 0

/-- The six bit unpacking of li_can_slv_xload.c:390-397 and 890-897. -/
def shortName (src : List Byte) : List Byte :=
  let s2 := b8 src 2; let s3 := b8 src 3; let s4 := b8 src 4
  let s5 := b8 src 5; let s6 := b8 src 6; let s7 := b8 src 7
  [(0x20 : Byte) + (s2 >>> 2),
   (0x20 : Byte) + ((s2 &&& 0x03) <<< 4) + ((s3 &&& 0xF0) >>> 4),
   (0x20 : Byte) + ((s3 &&& 0x0F) <<< 2) + ((s4 &&& 0xC0) >>> 6),
   (0x20 : Byte) + (s4 &&& 0x3F),
   (0x20 : Byte) + ((s5 &&& 0xFC) >>> 2),
   (0x20 : Byte) + ((s5 &&& 0x03) <<< 4) + ((s6 &&& 0xF0) >>> 4),
   (0x20 : Byte) + ((s6 &&& 0x0F) <<< 2) + ((s7 &&& 0xC0) >>> 6),
   (0x20 : Byte) + (s7 &&& 0x3F)]

/-- bytes `src[i] .. src[i + n - 1]` -/
def slice (src : List Byte) (i n : Nat) : List Byte := (List.range n).map fun k => b8 src (i + k)

/-- `dload_version_request_pre_handle`, li_can_slv_xload.c:1238-1293. -/
def versionPre (env : AEnv) (s : Stack) (nr : Nat) : Stack × Err :=
  let s := if s.x.hnd .dlVersion = none then s
    else s.setX fun x => { x with vcomp := { x.vcomp with nr := nr } }
  let r := s.callHnd env .dlVersion s.x.vcomp
  let s := r.1.setX fun x => { x with vcomp := { x.vcomp with name := noName } }
  if r.2.err = E.ok then
    if r.2.stackEnd then (s.versionAnswer env nr s.x.vcomp.index s.x.vcomp.crc s.x.vcomp.dlId, E.ok)
    else (s, E.ok)
  else (s.termination env nr r.2.err, r.2.err)

/-- `li_can_slv_dload_version_request_short`, li_can_slv_xload.c:385-406. -/
def versionShort (env : AEnv) (s : Stack) (nr : Nat) (src : List Byte) : Stack × Err :=
  (s.setX fun x => { x with vcomp := { x.vcomp with index := b8 src 1, name := shortName src } }).versionPre env nr

/-- `li_can_slv_dload_version_request_long1`, li_can_slv_xload.c:416-432. -/
def versionLong1 (s : Stack) (src : List Byte) : Stack :=
  s.setX fun x => { x with vcomp := { x.vcomp with
    index := b8 src 1, name := slice src 2 6 ++ x.vcomp.name.drop 6 } }

/-- `li_can_slv_dload_version_request_long2`, li_can_slv_xload.c:443-461. -/
def versionLong2 (env : AEnv) (s : Stack) (nr : Nat) (src : List Byte) : Stack × Err :=
  (s.setX fun x => { x with vcomp := { x.vcomp with
    name := x.vcomp.name.take 6 ++ slice src 2 2 } }).versionPre env nr

/-- `li_can_slv_dload_start_request1`, li_can_slv_xload.c:470-488. -/
def dlStart1 (s : Stack) (src : List Byte) : Stack :=
  if s.x.busy then s
  else s.setX fun x => { x with comp := { x.comp with name := slice src 1 7 ++ x.comp.name.drop 7 } }

/-- `li_can_slv_dload_start_request2`, li_can_slv_xload.c:500-580.  `tp` is the row of the addressed
module (the caller has found it). -/
def dlStart2 (env : AEnv) (s : Stack) (nr tp : Nat) (src : List Byte) : Stack × Err :=
  if s.x.busy then (s.termination env nr E.dloadInProgress, E.dloadInProgress)
  else
    let s := s.setX fun x => { x with busy := true, comp := { x.comp with
      name := x.comp.name.take 7 ++ [b8 src 1]
      crc := at8 src 2 * 256 + at8 src 3
      dlId := at8 src 4 * 16777216 + at8 src 5 * 65536 + at8 src 6 * 256 + at8 src 7
      nr := nr
      typ := (s.slv.node.rows tp).typ } }
    let r := s.callHnd env .dlStartReq s.x.comp
    if r.2.err = E.ok then (r.1, E.ok) else (r.1.termination env nr r.2.err, r.2.err)

/-- `li_can_slv_dload_data`, li_can_slv_xload.c:590-620. -/
def dlData (env : AEnv) (s : Stack) (nr : Nat) (src : List Byte) : Stack × Err :=
  let r := s.x.buf.addLoop env.bufSize (slice src 1 7)
  let s := s.setX fun x => { x with buf := r.1 }
  if r.2 = E.ok then
    (s.setX fun x => { x with objs := u16 (x.objs + 1), bytes := u16 (x.bytes + 7) }, E.ok)
  else (s.termination env nr r.2, r.2)

/-- `(uint16_t)(a - b)` -/
def sub16 (a b : Nat) : Nat := (((a : Int) - b) % 65536).toNat

/-- `li_can_slv_dload_data_block_end`, li_can_slv_xload.c:631-698. -/
def dlBlockEnd (env : AEnv) (s : Stack) (nr : Nat) (src : List Byte) : Stack × Err :=
  let announced := at8 src 1 * 256 + at8 src 2
  if at8 src 3 * 256 + at8 src 4 = s.x.objs then
    let rest := sub16 s.x.bytes announced
    let s := if 0 < rest then s.setX fun x => { x with buf := (x.buf.removeBytes env.bufSize rest).1 } else s
    let r := s.callHnd env .dlBlock s.x.comp
    if r.2.err = E.ok then
      ((r.1.blockAckn env nr).setX fun x => { x with bytes := 0, objs := 0 }, E.ok)
    else (r.1.termination env nr r.2.err, r.2.err)
  else (s.termination env nr E.byteCountNotMatch, E.byteCountNotMatch)

/-- `li_can_slv_dload_end`, li_can_slv_xload.c:709-764. -/
def dlEnd (env : AEnv) (s : Stack) (nr : Nat) : Stack × Err :=
  let r := s.callHnd env .dlEnd s.x.comp
  if r.2.err = E.ok then
    if r.2.stackEnd then (r.1.endAckn env nr, E.ok) else (r.1, E.ok)
  else (r.1.termination env nr r.2.err, r.2.err)

/-- `li_can_slv_dload_start`, li_can_slv_xload.c:771-812: called by the application with a component
of its own. -/
def dlStart (env : AEnv) (s : Stack) (c : Component) : Stack × Err :=
  let s := s.setX fun x => { x with busy := true }
  let r := s.callHnd env .dlStart c
  if r.2.err = E.ok then (r.1.startAckn env c.nr (u16 (env.bufSize - 56)) 0, E.ok)
  else (r.1.termination env c.nr r.2.err, r.2.err)

/-- `uload_info_request_pre_handle`, li_can_slv_xload.c:1321-1376. -/
def infoPre (env : AEnv) (s : Stack) (nr : Nat) : Stack × Err :=
  let s := if s.x.hnd .ulInfo = none then s
    else s.setX fun x => { x with comp := { x.comp with nr := nr } }
  let r := s.callHnd env .ulInfo s.x.comp
  let s := r.1.setX fun x => { x with comp := { x.comp with name := noName } }
  if r.2.err = E.ok then
    if r.2.stackEnd then (s.infoAnswer env nr s.x.comp.index r.2.size, E.ok) else (s, E.ok)
  else (s.termination env nr r.2.err, r.2.err)

/-- `li_can_slv_uload_info_request_short`, li_can_slv_xload.c:885-906. -/
def infoShort (env : AEnv) (s : Stack) (nr : Nat) (src : List Byte) : Stack × Err :=
  (s.setX fun x => { x with comp := { x.comp with index := b8 src 1, name := shortName src } }).infoPre env nr

/-- `li_can_slv_uload_start_request1`, li_can_slv_xload.c:950-965. -/
def ulStart1 (s : Stack) (nr : Nat) (src : List Byte) : Stack :=
  s.setX fun x => { x with objs := 0, bytes := 0, comp := { x.comp with
    nr := nr, name := if x.busy then x.comp.name else slice src 1 7 ++ x.comp.name.drop 7 } }

/-- `li_can_slv_uload_start_request2`, li_can_slv_xload.c:977-1014. -/
def ulStart2 (env : AEnv) (s : Stack) (nr : Nat) (src : List Byte) : Stack × Err :=
  if s.x.busy then (s.termination env nr E.dloadInProgress, E.dloadInProgress)
  else
    let s := s.setX fun x => { x with
      busy := true
      maxBytes := at8 src 2 * 256 + at8 src 3
      delay := at8 src 4
      comp := { x.comp with nr := nr, name := x.comp.name.take 7 ++ [b8 src 1] } }
    let r := s.callHnd env .ulStart s.x.comp
    if r.2.err = E.ok then (r.1, E.ok) else (r.1.termination env nr r.2.err, r.2.err)

/-- `li_can_slv_uload_block_ackn`, li_can_slv_xload.c:1121-1140. -/
def ulBlockAckn (env : AEnv) (s : Stack) : Stack × Err :=
  let r := s.callHnd env .ulAck s.x.comp
  (r.1, r.2.err)

/-- `li_can_slv_uload_end_ackn`, li_can_slv_xload.c:1149-1155, and `li_can_slv_uload_termination`,
1165-1173. -/
def ulStop (s : Stack) : Stack := s.setX fun x => { x with busy := false }

/-! ## The upload loop -/

/-- `ULOAD_STATE_FILL_BUFFER`, li_can_slv_xload.c:1039-1055: seven bytes and the new byte count. -/
def ulFill (data : List Byte) (bytes : Nat) : List Byte × Nat :=
  ((List.range 7).map fun k => data.getD (bytes + k) 0, if data.length < bytes then bytes else min data.length (bytes + 7))

/-- `li_can_slv_uload_data_from_buffer`, li_can_slv_xload.c:1021-1111: the loop from a filled segment
`seg` on, with at most `k` readings of the tick counter; `none`: still waiting.  (`data_length` is a
`uint16_t`: theorems take `data.length < 65536`; the byte counter then never wraps.) -/
def ulLoop (env : AEnv) (data : List Byte) : Nat → Stack → Nat → List Byte → Option Stack
  | 0, _, _, _ => none
  | k + 1, s, old, seg =>
    let now := env.clock s.clockN
    let s := { s with clockN := s.clockN + 1 }
    if u32 (old + s.x.delay) < now then
      let s := s.ctrlTx env s.x.comp.nr (0x15 :: seg)
      let s := s.setX fun x => { x with objs := u16 (x.objs + 1) }
      if s.x.bytes < data.length then
        let old := env.clock s.clockN
        let f := ulFill data s.x.bytes
        ulLoop env data k { (s.setX fun x => { x with bytes := f.2 }) with clockN := s.clockN + 1 } old f.1
      else some { (s.uloadBlockEnd env s.x.comp.nr) with clockN := s.clockN + 1 }
    else ulLoop env data k s old seg

/-- `li_can_slv_uload_data_from_buffer`, li_can_slv_xload.c:1021-1111. -/
def ulData (env : AEnv) (fuel : Nat) (s : Stack) (data : List Byte) : Option Stack :=
  let old := env.clock s.clockN
  let f := ulFill data s.x.bytes
  ulLoop env data fuel { (s.setX fun x => { x with objs := 0, bytes := f.2 }) with clockN := s.clockN + 1 } old f.1

end Stack
end LiCan
