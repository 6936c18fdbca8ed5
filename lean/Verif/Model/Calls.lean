import Verif.Model.Session
/-
Programs as sequences of calls on one handle: every function of mbus-protocol-aux.h that sends or receives, and the options.
-/
namespace Mbus

/-- One call on a connected handle. -/
inductive Call where
  /-- `mbus_send_frame` -/
  | send (f : Frame)
  /-- `mbus_recv_frame` -/
  | recv (f : Frame)
  /-- `mbus_purge_frames` -/
  | purge
  /-- `mbus_send_request_frame` -/
  | request (address : Int)
  /-- `mbus_send_ping_frame` -/
  | ping (address : Int) (purge : Bool)
  /-- `mbus_send_switch_baudrate_frame` -/
  | baud (address rate : Int)
  /-- `mbus_send_application_reset_frame` -/
  | reset (address subcode : Int)
  /-- `mbus_send_user_data_frame` -/
  | userData (address : Int) (data : List Byte) (size : Nat)
  /-- `mbus_set_primary_address` -/
  | setAddress (old new : Int)
  /-- `mbus_send_select_frame` -/
  | sendSelect (mask : List Byte)
  /-- `mbus_select_secondary_address` -/
  | select (mask : List Byte)
  /-- `mbus_probe_secondary_address` -/
  | probe (mask : List Byte)
  /-- `mbus_scan_2nd_address_range` -/
  | scan (pos : Int) (mask : List Byte)
  /-- `mbus_read_slave` -/
  | readSlave (address : Address) (reply : Frame)
  /-- `mbus_sendrecv_request` -/
  | sendrecv (address : Int) (reply : Frame) (maxFrames : Int)
  /-- `mbus_context_set_option` -/
  | option (which value : Int)

/-- What a call does to the handle: its options and the state of the link (results are not kept: a program that decides by
the results makes some sequence of calls).  Cites: mbus-protocol-aux.c:1635-2534, see the functions. -/
def Call.run {σ : Type} (l : Link σ) (h : Settings × σ) (c : Call) : C (Settings × σ) :=
  let o := l.ops h.1.purgeFirst
  match c with
  | .send f => do let (_, _, s) ← o.send h.2 f; .ok (h.1, s)
  | .recv f => do let (_, _, s) ← o.recv h.2 f; .ok (h.1, s)
  | .purge => do let (_, s) ← o.purge h.2; .ok (h.1, s)
  | .request a => do let (_, s) ← sendRequest o h.2 a; .ok (h.1, s)
  | .ping a p => do let (_, s) ← sendPing o h.2 a p; .ok (h.1, s)
  | .baud a r => do let (_, s) ← sendBaud o h.2 a r; .ok (h.1, s)
  | .reset a c => do let (_, s) ← sendAppReset o h.2 a c; .ok (h.1, s)
  | .userData a d n => do let (_, s) ← sendUserData o h.2 a d n; .ok (h.1, s)
  | .setAddress a b => do let (_, s) ← setPrimaryAddress o h.2 a b; .ok (h.1, s)
  | .sendSelect m => do let (_, s) ← Mbus.sendSelect o h.2 m; .ok (h.1, s)
  | .select m => do let (_, s) ← selectSecondary o h.2 m; .ok (h.1, s)
  | .probe m => do let (_, _, s) ← probeSecondary o h.1 h.2 m; .ok (h.1, s)
  | .scan p m => do let (_, s) ← scanRange o h.1 h.2 p m; .ok (h.1, s)
  | .readSlave a f => do let (_, _, s) ← Mbus.readSlave o h.2 a f; .ok (h.1, s)
  | .sendrecv a f n => do let r ← sendrecvRequest o h.1 h.2 a f n; .ok (h.1, r.state)
  | .option w v => .ok ((setOption h.1 w v).2, h.2)

/-- a sequence of calls -/
def runCalls {σ : Type} (l : Link σ) (h : Settings × σ) : List Call → C (Settings × σ)
  | [] => .ok h
  | c :: cs => do
    let h ← c.run l h
    runCalls l h cs

end Mbus
