import Verif.Model.Calls
import Verif.Model.DiagLink
/-
A process with several handles: calls on the handles in any order.  The handles have their own descriptor, bus and options, but share
`error_str` (mbus-protocol.c:19) and stderr.  (The other static memory: the buffers of C112, of which the session functions only use the one
of `mbus_frame_get_secondary_address`, filled and read within one call, mbus-protocol-aux.c:2330-2344; and `slave_data`, which they do not
use.)
-/
namespace Mbus

/-- what a call gives back to its caller -/
inductive Outcome where
  | code (r : Int)
  /-- code and the frame object handed in -/
  | reply (r : Int) (f : Frame)
  /-- code and the text in `matching_addr` -/
  | matched (r : Int) (addr : Option (List Byte))
  /-- code and the chain of frames -/
  | chain (r : Int) (fs : List Frame)

/-- `Call.run` (Model/Calls) with the results kept; cites: mbus-protocol-aux.c:1635-2534, see the functions. -/
def Call.exec {σ : Type} (l : Link σ) (h : Settings × σ) (c : Call) : C (Outcome × Settings × σ) :=
  let o := l.ops h.1.purgeFirst
  match c with
  | .send f => do let (r, f, s) ← o.send h.2 f; .ok (.reply r f, h.1, s)
  | .recv f => do let (r, f, s) ← o.recv h.2 f; .ok (.reply r f, h.1, s)
  | .purge => do let (r, s) ← o.purge h.2; .ok (.code r, h.1, s)
  | .request a => do let (r, s) ← sendRequest o h.2 a; .ok (.code r, h.1, s)
  | .ping a p => do let (r, s) ← sendPing o h.2 a p; .ok (.code r, h.1, s)
  | .baud a b => do let (r, s) ← sendBaud o h.2 a b; .ok (.code r, h.1, s)
  | .reset a b => do let (r, s) ← sendAppReset o h.2 a b; .ok (.code r, h.1, s)
  | .userData a d n => do let (r, s) ← sendUserData o h.2 a d n; .ok (.code r, h.1, s)
  | .setAddress a b => do let (r, s) ← setPrimaryAddress o h.2 a b; .ok (.code r, h.1, s)
  | .sendSelect m => do let (r, s) ← Mbus.sendSelect o h.2 m; .ok (.code r, h.1, s)
  | .select m => do let (r, s) ← selectSecondary o h.2 m; .ok (.code r, h.1, s)
  | .probe m => do let (r, a, s) ← probeSecondary o h.1 h.2 m; .ok (.matched r a, h.1, s)
  | .scan p m => do let (r, s) ← scanRange o h.1 h.2 p m; .ok (.code r, h.1, s)
  | .readSlave a f => do let (r, f, s) ← Mbus.readSlave o h.2 a f; .ok (.reply r f, h.1, s)
  | .sendrecv a f n => do let r ← sendrecvRequest o h.1 h.2 a f n; .ok (.chain r.code r.chain, h.1, r.state)
  | .option w v => let q := setOption h.1 w v; .ok (.code q.1, q.2, h.2)

/-- The same call with its diagnostics (Model/Diag): the handle's bus together with the text in `error_str`; last component: the lines
written to stderr.  Cites: as `Call.exec`. -/
def Call.talk (k : Kind) (env : Env) (st : Settings) (s : Bus × List Byte) (c : Call) : C (Outcome × Settings × (Bus × List Byte) × List Note) :=
  let d := talkDesk k env st.purgeFirst
  match c with
  | .send f => do let (r, f, s) ← d.send s f; .ok (.reply r f, st, s, [])
  | .recv f => do let (r, f, s) ← d.recv s f; .ok (.reply r f, st, s, [])
  | .purge => do let (r, s) ← d.purge s; .ok (.code r, st, s, [])
  | .request a => do let (r, s, n) ← sendRequestD d s a; .ok (.code r, st, s, n)
  | .ping a p => do let (r, s, n) ← sendPingD d s a p; .ok (.code r, st, s, n)
  | .baud a b => do let (r, s, n) ← sendBaudD d s a b; .ok (.code r, st, s, n)
  | .reset a b => do let (r, s, n) ← sendAppResetD d s a b; .ok (.code r, st, s, n)
  | .userData a x l => do let (r, s, n) ← sendUserDataD d s a x l; .ok (.code r, st, s, n)
  | .setAddress a b => do let (r, s, n) ← setPrimaryAddressD d s a b; .ok (.code r, st, s, n)
  | .sendSelect m => do let (r, s, n) ← sendSelectD d s m; .ok (.code r, st, s, n)
  | .select m => do let (r, s, n) ← selectSecondaryD d s m; .ok (.code r, st, s, n)
  | .probe m => do let (r, a, s, n) ← probeSecondaryD d st s m; .ok (.matched r a, st, s, n)
  | .scan p m => do let (r, s, n) ← scanRangeD d st s p m; .ok (.code r, st, s, n)
  | .readSlave a f => do let (r, f, s, n) ← readSlaveD d s a f; .ok (.reply r f, st, s, n)
  | .sendrecv a f m => do let (r, n) ← sendrecvRequestD d st s a f m; .ok (.chain r.code r.chain, st, r.state, n)
  | .option w v => let q := setOption st w v; .ok (.code q.1, q.2, s, [])

/-- mbus-protocol.c:19 and the handles of a process (mbus-protocol-aux.h:84-101): the text in `error_str`, and each handle's options and bus -/
structure Many where
  err : List Byte
  handle : Nat → Settings × Bus

/-- One call on handle `i` in the process (kinds and environments of the handles are fixed). -/
def Many.step (kind : Nat → Kind) (env : Nat → Env) (p : Many) (i : Nat) (c : Call) : C (Outcome × Many × List Note) := do
  let (out, st, s, n) ← c.talk (kind i) (env i) (p.handle i).1 ((p.handle i).2, p.err)
  .ok (out, ⟨s.2, fun j => if j = i then (st, s.1) else p.handle j⟩, n)

/-- A schedule: calls on handles in any order.  Result: what each call gave back, and the lines on stderr, with the handle they belong to. -/
def Many.run (kind : Nat → Kind) (env : Nat → Env) (p : Many) : List (Nat × Call) → C (List (Nat × Outcome) × Many × List (Nat × Note))
  | [] => .ok ([], p, [])
  | (i, c) :: cs => do
    let (out, p, n) ← p.step kind env i c
    let (outs, p, ns) ← Many.run kind env p cs
    .ok ((i, out) :: outs, p, n.map (fun x => (i, x)) ++ ns)

end Mbus
