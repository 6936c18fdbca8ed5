import Verif.Model.Session
/-
An observer for the session functions: the operations of a handle, with every call and its result written to a log.  The
session functions run unchanged on the observed operations.
-/
namespace Mbus

/-- what a session function did on its handle -/
inductive Act where
  /-- `mbus_send_frame` of frame `f` returned `code` -/
  | sent (f : Frame) (code : Int)
  /-- `mbus_recv_frame` returned `code` and left `f` in the frame object -/
  | received (code : Int) (f : Frame)
  /-- `mbus_purge_frames` returned `r` -/
  | purged (r : Int)
  /-- the scan progress callback was called with this mask -/
  | progress (mask : List Byte)
  /-- a device with this address was reported -/
  | found (addr : List Byte) (f : Frame)

/-- mbus-protocol-aux.c:1674-1745: `mbus_send_frame`, `mbus_recv_frame`, `mbus_purge_frames` and the callbacks, logged. -/
def Ops.logged {σ : Type} (o : Ops σ) : Ops (σ × List Act) where
  send s f := do
    let (r, f', s') ← o.send s.1 f
    .ok (r, f', s', s.2 ++ [.sent f r])
  recv s f := do
    let (c, f', s') ← o.recv s.1 f
    .ok (c, f', s', s.2 ++ [.received c f'])
  purge s := do
    let (r, s') ← o.purge s.1
    .ok (r, s', s.2 ++ [.purged r])
  progress s m := (o.progress s.1 m, s.2 ++ [.progress m])
  found s a f := (o.found s.1 a f, s.2 ++ [.found a f])

end Mbus
