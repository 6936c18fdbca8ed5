import Verif.Model.Bus
import Verif.Model.Value
/-
Model of the event callbacks of a handle and of the two callbacks the library provides for them.

`mbus_register_send_event` and `mbus_register_recv_event` (mbus-protocol-aux.c:750-767) store the callbacks; the transports call
them with the bytes written (mbus-tcp.c:170-176, mbus-serial.c:263-269) or read (mbus-tcp.c:243-248, mbus-serial.c:361-366).
A handle with both callbacks registered is a link whose state also holds the list of callback calls so far.
-/
namespace Mbus

/-- one call of an event callback -/
inductive Event where
  | send (bytes : List Byte)
  | recv (bytes : List Byte)
  deriving DecidableEq, Repr

/-- The link of a handle with both event callbacks registered: mbus-tcp.c:150-256, mbus-serial.c:228-382. -/
def tracedLink (k : Kind) (env : Env) : Link (Bus × List Event) where
  send b f := do
    let (r, f, w) ← sendFrame (match k with | .tcp => true | .serial => env.tty) env.junk (env.wret b.1.sent) f
    match w with
    | none => .ok (r, f, b)
    | some bytes =>
      let bus := { script := b.1.script ++ env.respond (b.1.sent ++ [bytes]), sent := b.1.sent ++ [bytes] }
      if r = 0 then .ok (r, f, bus, b.2 ++ [.send bytes]) else .ok (r, f, bus, b.2)
  recv b f := do
    let out ← kindRecv k env.tty b.1.script f
    let bus := { b.1 with script := out.rest }
    match out.event with
    | none => .ok (out.code, out.frame, bus, b.2)
    | some bytes => .ok (out.code, out.frame, bus, b.2 ++ [.recv bytes])
  pending b := evWeight b.1.script
  recv_le := by
    intro s f c f' s' h
    obtain ⟨out, h1, h2, _⟩ := kindRecv_weight k env.tty s.1.script f
    rw [h1] at h
    simp only [ok_bind] at h
    split at h <;>
    · simp only [Except.ok.injEq, Prod.mk.injEq] at h
      obtain ⟨_, _, rfl⟩ := h
      exact h2
  recv_lt := by
    intro s f c f' s' h hc
    obtain ⟨out, h1, _, h3⟩ := kindRecv_weight k env.tty s.1.script f
    rw [h1] at h
    simp only [ok_bind] at h
    split at h <;>
    · simp only [Except.ok.injEq, Prod.mk.injEq] at h
      obtain ⟨rfl, _, rfl⟩ := h
      exact h3 hc

/-- mbus-protocol.c:4518-4541 `mbus_hex_dump(label, buff, len)` (non-NULL): the line written to standard error; `stamp` is the text made by
`strftime` with the format `%Y-%m-%d %H:%M:%SZ`. -/
def hexDumpLine (stamp label buff : List Byte) : List Byte :=
  cs! "[" ++ stamp ++ cs! "] " ++ label ++ cs! " (" ++ padZero 3 (decDigits buff.length) ++ cs! "):" ++
    buff.flatMap (fun b => cs! " " ++ fmtHex2 b) ++ cs! "\n"

/-- mbus-protocol.c:66-76 `mbus_dump_recv_event`, `mbus_dump_send_event` -/
def dumpEvent (stamp : List Byte) : Event → List Byte
  | .send bytes => hexDumpLine stamp (cs! "SEND") bytes
  | .recv bytes => hexDumpLine stamp (cs! "RECV") bytes

/-- what a program with both dump callbacks registered has written to standard error by these calls of the callbacks -/
def dumpAll (es : List (List Byte × Event)) : List Byte := es.flatMap fun p => dumpEvent p.1 p.2

end Mbus
