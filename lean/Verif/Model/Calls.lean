import Verif.Model.Basic
/-!
# Calls of the application made by the transfer and tunnel parts

What the application and the port layer can observe of source/xload/li_can_slv_xload.c and
source/async/io_can_async.c.
-/
namespace LiCan

/-- `li_can_slv_xload_component_t`, include/li_can_slv/xload/li_can_slv_xload_buffer_types.h:52-60.
`name` are the characters `name[0..7]`; `name[8]` is always the terminating NUL when a handler is
called and is never read by the stack. -/
structure Component where
  nr    : Nat := 0
  name  : List Byte := [0, 0, 0, 0, 0, 0, 0, 0]
  crc   : Nat := 0
  dlId  : Nat := 0
  index : Byte := 0
  typ   : List Byte := []
deriving DecidableEq, Repr

/-- The eight registered transfer handlers, li_can_slv_xload.c:125-135. -/
inductive Hnd
  | dlStart | dlVersion | dlStartReq | dlBlock | dlEnd | ulInfo | ulStart | ulAck
deriving DecidableEq, Repr

/-- Calls into the application and the port layer. -/
inductive ACall
  /-- transfer handler `f` registered as `h`, called with a component -/
  | hnd (h : Hnd) (f : Nat) (c : Component)
  /-- result of `xload_buffer_get_byte` called by a handler (`none`: buffer empty) -/
  | got (x : Option Byte)
  /-- `li_can_slv_port_async_tunnel_open_handle` -/
  | tnlOpen
  /-- `li_can_slv_port_async_tunnel_free_handle` -/
  | tnlFree
  /-- `li_can_slv_port_async_tunnel_clear_rx_buffer_handle` -/
  | tnlClear
  /-- `li_can_slv_port_async_tunnel_xon_rx_handle` -/
  | tnlXon
  /-- `li_can_slv_port_async_tunnel_xoff_rx_handle` -/
  | tnlXoff
  /-- `li_can_slv_port_async_tunnel_data_rx_handle` -/
  | tnlData (data : List Byte) (dlc : Nat)
  /-- online baud rate search starts: callback `f` (io_can_reconnect.c:1086-1098) -/
  | onStart (f : Nat)
  /-- online baud rate search ended with the given rate -/
  | onStop (f : Nat) (baud : Nat)
  /-- startup baud rate search starts: callback `f` (io_can_reconnect.c:1100-1112) -/
  | suStart (f : Nat)
  /-- startup baud rate search ended with the given rate -/
  | suStop (f : Nat) (baud : Nat)
deriving DecidableEq, Repr

end LiCan
