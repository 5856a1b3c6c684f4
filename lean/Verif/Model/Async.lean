import Verif.Model.XLoad
/-!
# Asynchronous messages: dispatch, tunnel and data transmit queue

Models source/async/io_can_async.c, source/async/io_can_async_handler.c and
source/core/io_can_main_handler.c.
-/
namespace LiCan
namespace Stack
open Slave (at8 byteOf)

/-- change the tunnel part -/
def setT (s : Stack) (f : Tunnel → Tunnel) : Stack := { s with tnl := f s.tnl }

/-! ## Data transmit queue -/

/-- `can_async_handle_async_data_tx_queue`, io_can_async.c:730-756. -/
def handleQ (env : AEnv) (s : Stack) : Stack × Err :=
  if 0 < s.q.state then
    let r := s.slv.node.send env.toEnv (s.q.buf s.q.read)
    let s := s.setNode r.1
    if r.2 = E.ok then
      ({ s with q := { s.q with read := if s.q.read < 3 then s.q.read + 1 else 0, state := s.q.state - 1 } }, E.ok)
    else (s, r.2)
  else (s, E.ok)

/-- `can_main_handler_tx`, io_can_main_handler.c:84-127. -/
def handlerTx (env : AEnv) (s : Stack) : Stack :=
  if s.rc.state ≠ .on then
    if 0 < s.q.state then
      let r := handleQ env s
      r.1.setNode (r.1.slv.node.report env.toEnv r.2)
    else s
  else s

/-- `can_async_send_data_to_async_data_tx_queue` with `CAN_ASYNC_DATA_TX_TYPE_SLAVE`,
io_can_async.c:676-721 (queue length 4); `src` holds at least `dlc` bytes.  The trigger macro of
include/li_can_slv/arch/canpie_adapter/io_can_port.h:68 calls `can_main_handler_tx`. -/
def enqueue (env : AEnv) (s : Stack) (nr dlc : Nat) (src : List Byte) : Stack × Err :=
  if 4 ≤ s.q.state then (s, E.asyncDataTxOverflow)
  else if 8 < dlc then (s, E.asyncDataTxDlc)
  else
    let s := { s with q := { s.q with
      buf := upd s.q.buf s.q.write ⟨asyncDataTxId nr, dlc, src.take dlc⟩
      write := if s.q.write < 3 then s.q.write + 1 else 0
      state := s.q.state + 1 } }
    (handlerTx env s, E.ok)

/-! ## Tunnel -/

/-- `can_async_tnl_ctl_response`, io_can_async.c:773-841: CLOSE and CLOSE_ACK. -/
def tnlClose (env : AEnv) (s : Stack) (code : Byte) (prim own : Nat) : Stack :=
  s.ctrlTx env own [code, byteOf prim 0, 0, 0, 0, 0, 0, 0]

/-- `can_async_tnl_ctl_response`, io_can_async.c:782-787: OPEN_ACK. -/
def tnlOpenAck (env : AEnv) (s : Stack) (prim own : Nat) : Stack :=
  s.ctrlTx env own [0x03, byteOf prim 0, 0, 0, 0, byteOf s.tnl.delay 1, byteOf s.tnl.delay 0, 0]

/-- `can_async_tnl_ctl_response`, io_can_async.c:803-821: OPEN_DENY (5) and CLOSE_DENY (6); the reason is
a 16 bit number. -/
def tnlDeny (env : AEnv) (s : Stack) (code : Byte) (prim own : Nat) (e : Err) : Stack :=
  s.ctrlTx env own [code, byteOf prim 0, 0, 0, 0, 0, byteOf e.toNat 1, byteOf e.toNat 0]

/-- A call of a port function of the tunnel. -/
def callPort (env : AEnv) (s : Stack) (c : ACall) : Stack × Err :=
  let r := s.callApp env c
  (r.1, r.2.err)

/-- `LI_CAN_SLV_ASYNC_TUNNEL_OPEN`, io_can_async.c:447-517.
`can_async_tunnel_open_handle_funcp` is never assigned (line 224), so a connection type other than 0 is
always denied.  The result of `can_main_define_msg_obj` is ignored. -/
def tnlOpen (env : AEnv) (s : Stack) (nr : Nat) (src : List Byte) : Stack × Err :=
  if s.tnl.state = .free then
    let r := s.callPort env .tnlOpen
    if r.2 = E.ok then
      let s := r.1.setT fun t => { t with
        own := nr, prim := at8 src 1, sec := nr, state := .active, typ := at8 src 4
        delay := at8 src 5 * 256 + at8 src 6 }
      if at8 src 4 = 0 then
        let n := s.slv.node.define env.toEnv 6 ⟨idOf 0x602 nr 0, 0x07FF#16, 8, .asyncRx⟩
        ((s.setNode n.1).tnlOpenAck env (at8 src 1) nr, E.ok)
      else (s.tnlDeny env 0x05 (at8 src 1) nr E.tunnelHndlNotDefined, E.ok)
    else (r.1.tnlDeny env 0x05 (at8 src 1) nr r.2, r.2)
  else (s.tnlDeny env 0x05 (at8 src 1) nr E.tnlAlreadyUsed, E.ok)

/-- the session variables reset by a close, io_can_async.c:528-531 and 556-559 -/
def tnlFree (s : Stack) : Stack :=
  s.setT fun t => { t with own := 125, prim := 125, sec := 125, state := .free }

/-- `LI_CAN_SLV_ASYNC_TUNNEL_CLOSE`, io_can_async.c:519-538. -/
def tnlCloseReq (env : AEnv) (s : Stack) (nr : Nat) (src : List Byte) : Stack × Err :=
  let r := s.callPort env .tnlFree
  if r.2 = E.ok then (r.1.tnlFree.tnlClose env 0x04 (at8 src 1) nr, E.ok)
  else (r.1.tnlDeny env 0x06 (at8 src 1) nr r.2, r.2)

/-- `can_async_tnl_reset_port`, io_can_async.c:851-869; the caller ignores the result. -/
def tnlReset (env : AEnv) (s : Stack) : Stack × Err :=
  if s.tnl.state = .active then
    let r := s.callPort env .tnlClear
    if r.2 = E.ok then ((r.1.callPort env .tnlXon).1, E.ok) else r
  else (s, E.tnlWrongState)

/-- `LI_CAN_SLV_ASYNC_TUNNEL_CLOSE_ACK`, io_can_async.c:548-562. -/
def tnlCloseAck (env : AEnv) (s : Stack) (nr : Nat) (src : List Byte) : Stack × Err :=
  if s.tnl.state = .shutdown ∧ s.tnl.prim = at8 src 1 ∧ s.tnl.own = nr then
    let r := s.callPort env .tnlFree
    (r.1.tnlFree, r.2)
  else (s, E.ok)

/-- `LI_CAN_SLV_ASYNC_TUNNEL_CLOSE_DENY`, io_can_async.c:567-578. -/
def tnlCloseDeny (s : Stack) (nr : Nat) (src : List Byte) : Stack :=
  if s.tnl.state = .shutdown ∧ s.tnl.prim = at8 src 1 ∧ s.tnl.own = nr then
    s.setT fun t => { t with state := .active }
  else s

/-- `CAN_ASYNC_XON`, `CAN_ASYNC_XOFF`, io_can_async.c:431-445. -/
def tnlX (env : AEnv) (s : Stack) (src : List Byte) (c : ACall) : Stack :=
  if s.tnl.state = .active ∧ s.tnl.prim = at8 src 1 then (s.callPort env c).1 else s

/-- The `switch` over the command in `can_async_rx`, io_can_async.c:393-629; `tp` is the row of the addressed
module. -/
def command (env : AEnv) (s : Stack) (nr tp : Nat) (src : List Byte) : Stack × Err :=
  match at8 src 0 with
  | 0x10 => s.versionShort env nr src
  | 0x11 => (s.versionLong1 src, E.ok)
  | 0x12 => s.versionLong2 env nr src
  | 0x13 => (s.dlStart1 src, E.ok)
  | 0x14 => s.dlStart2 env nr tp src
  | 0x15 => s.dlData env nr src
  | 0x16 => s.dlBlockEnd env nr src
  | 0x17 => s.dlEnd env nr
  | 0x0A => (s.tnlX env src .tnlXon, E.ok)
  | 0x09 => (s.tnlX env src .tnlXoff, E.ok)
  | 0x01 => s.tnlOpen env nr src
  | 0x02 => s.tnlCloseReq env nr src
  | 0x08 => ((s.tnlReset env).1, E.ok)
  | 0x03 => (s, E.ok)
  | 0x04 => s.tnlCloseAck env nr src
  | 0x05 => (s, E.ok)
  | 0x06 => (s.tnlCloseDeny nr src, E.ok)
  | 0x18 => (s, E.ok)
  | 0x19 => (s, E.ok)
  | 0x1A => s.ulBlockAckn env
  | 0x1B => (s.ulStop, E.ok)
  | 0x1C => (s.ulStop, E.ok)
  | 0x50 => s.infoShort env nr src
  | 0x1D => (s.ulStart1 nr src, E.ok)
  | 0x1E => s.ulStart2 env nr src
  | _ => (s, E.asyncUnknownCommand)

/-- `can_async_rx`, io_can_async.c:344-632. -/
def asyncRx (env : AEnv) (s : Stack) (nr : Nat) (src : List Byte) : Stack × Err :=
  match s.slv.node.findNr env.toEnv nr with
  | none => (s, E.ok)
  | some tp => if s.slv.node.silent tp = 0 then (s, E.ok) else s.command env nr tp src

/-- One of the equal branches io_can_async_handler.c:93-229, for one entry of the table
`can_config_async_ctrl_rx_objs`. -/
def ctrlStep (env : AEnv) (obj nr : Nat) (src : List Byte) (s : Stack) (k : Nat) : Stack :=
  if obj = s.slv.node.ctrlObj k then
    let r := s.asyncRx env nr src
    r.1.setNode (r.1.slv.node.report env.toEnv r.2)
  else s

/-- `can_async_handler_rx`, io_can_async_handler.c:76-236. -/
def ctrlRx (env : AEnv) (s : Stack) (obj id : Nat) (src : List Byte) : Stack :=
  if Node.bit obj &&& s.slv.node.hw.ctrlMask ≠ 0 then
    (List.range env.maxMod).foldl (ctrlStep env obj (asyncNrOfId id) src) s
  else s

/-- `can_async_handler_data_rx`, io_can_async_handler.c:240-256. -/
def dataRx (env : AEnv) (s : Stack) (obj dlc : Nat) (src : List Byte) : Stack :=
  if obj = 6 then (s.callPort env (.tnlData (src.take dlc) dlc)).1 else s

/-- `can_async_xon`, `can_async_xoff`, io_can_async.c:876-916 (handed to the port by open). -/
def xonOff (env : AEnv) (s : Stack) (code : Byte) : Stack × Err :=
  if s.tnl.state ≠ .active then (s, E.tnlWrongState)
  else (s.ctrlTx env s.tnl.own [code, byteOf s.tnl.prim 0, 0, 0, 0, 0, 0, 0], E.ok)

/-- `can_async_tunnel_shutdown`, io_can_async.c:1022-1038. -/
def tnlShutdown (env : AEnv) (s : Stack) : Stack × Err :=
  if s.tnl.state ≠ .active then (s, E.tnlWrongState)
  else
    let s := s.setT fun t => { t with state := .shutdown }
    (s.tnlClose env 0x02 s.tnl.prim s.tnl.own, E.ok)

/-- How far a call of `can_async_tunnel_putc` got. -/
inductive PutRes
  /-- returned with this code -/
  | done (e : Err)
  /-- in the loop io_can_async.c:944-948, waiting for room in the queue -/
  | waiting
deriving DecidableEq, Repr

/-- One iteration of the loop io_can_async.c:944-948 with the rest of the function. -/
def putcRetry (env : AEnv) (s : Stack) : Stack × PutRes :=
  let r := s.enqueue env s.tnl.own s.tnl.tmp.length s.tnl.tmp
  if r.2 = E.ok then
    (r.1.setT fun t => { t with tmp := [], lock := t.lock - 1 }, .done E.ok)
  else (r.1, .waiting)

/-- `can_async_tunnel_putc`, io_can_async.c:925-968, up to the first attempt to hand over a full
object.  (Writing beyond the eight bytes cannot happen: `used` is below 8 whenever the lock is free,
see the invariant in Verif.Lemmas.Tunnel.) -/
def putc (env : AEnv) (s : Stack) (x : Byte) : Stack × PutRes :=
  if s.tnl.lock ≠ 0 then (s, .done E.tnlBusy)
  else if s.tnl.state = .active then
    let s := s.setT fun t => { t with tmp := t.tmp ++ [x] }
    if s.tnl.tmp.length = 8 then putcRetry env (s.setT fun t => { t with lock := t.lock + 1 })
    else (s, .done E.ok)
  else (s, .done E.tnlWrongState)

/-- `can_async_tunnel_process_tx_data`, io_can_async.c:976-1010. -/
def processTx (env : AEnv) (s : Stack) (now : Nat) : Stack × Err :=
  if s.tnl.lock ≠ 0 then (s, E.tnlBusy)
  else if s.tnl.state = .active then
    if 0 < s.tnl.tmp.length ∧ u32 (s.tnl.tmp.length + env.ms2t 50) < now then
      let r := s.enqueue env s.tnl.own s.tnl.tmp.length s.tnl.tmp
      if r.2 = E.ok then (r.1.setT fun t => { t with tmp := [] }, E.ok) else r
    else (s, E.ok)
  else (s, E.tnlWrongState)

end Stack
end LiCan
