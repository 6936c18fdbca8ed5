import Verif.Model.Frame
/-
Model of the two transports: mbus-tcp.c and mbus-serial.c (receive and send of one frame).

A file descriptor is a script of the results its `read` calls will have: chunks of bytes, EINTR, EAGAIN or another error.
A `read` of n bytes takes at most n bytes of the next chunk and leaves the rest for the next call.  Behind the end of the
script the line is silent: `read` on the socket (which has a receive timeout, mbus-tcp.c:92-97) fails with EAGAIN, on the
serial line (VTIME, mbus-serial.c:53-81) returns 0.  Time itself is not modelled.
-/
namespace Mbus

/-- Result of one `read` system call. `data []` is a return value of 0. -/
inductive Ev where
  | data (bs : List Byte)
  | eintr
  | eagain
  | err
  deriving DecidableEq, Repr

/-- `read(fd, p, n)`: the result (`none`: silent line) and the remaining script. -/
def readEv (n : Nat) : List Ev → Option Ev × List Ev
  | [] => (none, [])
  | .data bs :: es => (some (.data (bs.take n)), if bs.length ≤ n then es else .data (bs.drop n) :: es)
  | e :: es => (some e, es)

/-- size of a script, for termination -/
def evWeight : List Ev → Nat
  | [] => 0
  | .data bs :: es => bs.length + 1 + evWeight es
  | _ :: es => 1 + evWeight es

theorem readEv_weight (n : Nat) (es es' : List Ev) (e : Ev) (h : readEv (n + 1) es = (some e, es')) :
    evWeight es' < evWeight es := by
  cases es with
  | nil => simp [readEv] at h
  | cons a es =>
    cases a with
    | data bs =>
      simp only [readEv, Prod.mk.injEq] at h
      obtain ⟨_, rfl⟩ := h
      split
      · simp only [evWeight]; omega
      · simp only [evWeight, List.length_drop]; omega
    | eintr => simp only [readEv, Prod.mk.injEq] at h; obtain ⟨_, rfl⟩ := h; simp only [evWeight]; omega
    | eagain => simp only [readEv, Prod.mk.injEq] at h; obtain ⟨_, rfl⟩ := h; simp only [evWeight]; omega
    | err => simp only [readEv, Prod.mk.injEq] at h; obtain ⟨_, rfl⟩ := h; simp only [evWeight]; omega

/-- mbus-protocol.h:118-122 -/
def RECV_OK : Int := 0
def RECV_ERROR : Int := -1
def RECV_INVALID : Int := -2
def RECV_TIMEOUT : Int := -3
def RECV_RESET : Int := -4

/-- mbus-tcp.c:26, mbus-serial.c:28 -/
def PACKET_BUFF_SIZE : Nat := 2048

/-- `read` storing `bs` at `buff + off`. -/
def store : List Byte → Nat → List Byte → C (List Byte)
  | buff, _, [] => .ok buff
  | buff, off, b :: bs => do
      let buff ← wr buff off b
      store buff (off + 1) bs

/-- What a receive function leaves behind: return code, the caller's frame, the rest of the script, and the bytes passed to
the `recv_event` callback (if it is called). -/
structure RecvOut where
  code : Int
  frame : Frame
  rest : List Ev
  event : Option (List Byte)
  deriving DecidableEq

set_option linter.unusedVariables false in
/-- mbus-tcp.c:204-255: the loop and the tail of `mbus_tcp_recv_frame`; `remaining` is `m + 1`.  The SSIZE_MAX test
(line 234) cannot fire since `len` is at most 2048. -/
def tcpLoop (es : List Ev) (f : Frame) (buff : List Byte) (len m : Nat) : C RecvOut :=
  if len + (m + 1) > PACKET_BUFF_SIZE then .ok ⟨RECV_ERROR, f, es, none⟩
  else
    match h : readEv (m + 1) es with
    | (none, es') => .ok ⟨RECV_TIMEOUT, f, es', none⟩
    | (some .eintr, es') => tcpLoop es' f buff len m
    | (some .eagain, es') => .ok ⟨RECV_TIMEOUT, f, es', none⟩
    | (some .err, es') => .ok ⟨RECV_ERROR, f, es', none⟩
    | (some (.data bs), es') =>
      if bs.length = 0 then .ok ⟨RECV_RESET, f, es', none⟩
      else
        match store buff len bs with
        | .error e => .error e
        | .ok buff =>
          let len := len + bs.length
          match mbusParse f buff len with
          | .error e => .error e
          | .ok (remaining, f) =>
            if remaining > 0 then tcpLoop es' f buff len (remaining.toNat - 1)
            else .ok ⟨if remaining < 0 then RECV_INVALID else RECV_OK, f, es', some (buff.take len)⟩
termination_by evWeight es
decreasing_by
  · exact readEv_weight _ _ _ _ h
  · exact readEv_weight _ _ _ _ h

/-- mbus-tcp.c:190-256 `mbus_tcp_recv_frame(handle, frame)` (both non-NULL). -/
def tcpRecv (es : List Ev) (f : Frame) : C RecvOut := tcpLoop es f (List.replicate PACKET_BUFF_SIZE 0) 0 0

/-- mbus-serial.c:356-381: the tail of `mbus_serial_recv_frame` (`len == -1` is impossible). -/
def serialTail (f : Frame) (es : List Ev) (buff : List Byte) (len : Nat) (remaining : Int) : RecvOut :=
  if len = 0 then ⟨RECV_TIMEOUT, f, es, none⟩
  else ⟨if remaining ≠ 0 then RECV_INVALID else RECV_OK, f, es, some (buff.take len)⟩

set_option linter.unusedVariables false in
/-- mbus-serial.c:316-355: the loop of `mbus_serial_recv_frame`; `remaining` is `m + 1`.  EINTR and EAGAIN are errors here. -/
def serialLoop (es : List Ev) (f : Frame) (buff : List Byte) (len m timeouts : Nat) : C RecvOut :=
  if len + (m + 1) > PACKET_BUFF_SIZE then .ok ⟨RECV_ERROR, f, es, none⟩
  else
    match h : readEv (m + 1) es with
    | (none, es') =>
      if 3 ≤ timeouts + 1 then .ok (serialTail f es' buff len (m + 1))
      else
        match mbusParse f buff len with
        | .error e => .error e
        | .ok (remaining, f) =>
          if remaining > 0 then serialLoop es' f buff len (remaining.toNat - 1) (timeouts + 1)
          else .ok (serialTail f es' buff len remaining)
    | (some (.data bs), es') =>
      let timeouts := if bs.length = 0 then timeouts + 1 else timeouts
      if bs.length = 0 ∧ 3 ≤ timeouts then .ok (serialTail f es' buff len (m + 1))
      else
        match store buff len bs with
        | .error e => .error e
        | .ok buff =>
          let len := len + bs.length
          match mbusParse f buff len with
          | .error e => .error e
          | .ok (remaining, f) =>
            if remaining > 0 then serialLoop es' f buff len (remaining.toNat - 1) timeouts
            else .ok (serialTail f es' buff len remaining)
    | (some _, es') => .ok ⟨RECV_ERROR, f, es', none⟩
termination_by evWeight es + (3 - timeouts)
decreasing_by
  · have : es' = es := by
      cases es with
      | nil => simp [readEv] at h; exact h
      | cons a es => cases a <;> simp [readEv] at h
    subst this; omega
  · have := readEv_weight _ _ _ _ h; split <;> omega

/-- mbus-serial.c:287-382 `mbus_serial_recv_frame(handle, frame)` (both non-NULL); `tty` is the result of `isatty`. -/
def serialRecv (tty : Bool) (es : List Ev) (f : Frame) : C RecvOut :=
  if tty then serialLoop es f (List.replicate PACKET_BUFF_SIZE 0) 0 0 0 else .ok ⟨RECV_ERROR, f, es, none⟩

/-- mbus-tcp.c:150-185 `mbus_tcp_send_frame` and mbus-serial.c:228-282 `mbus_serial_send_frame` (`tty` is true for TCP):
return code, the frame (whose length and checksum fields were filled in), the bytes written, if any.  `junk` is the
uninitialised stack buffer, `wret` the result of `write` for a given length.  A negative length other than -1 makes `write`
read beyond the buffer.  The `send_event` callback is called with exactly the bytes written when the result is 0. -/
def sendFrame (tty : Bool) (junk : Nat → Byte) (wret : Nat → Int) (f : Frame) : C (Int × Frame × Option (List Byte)) :=
  if tty = false then .ok (-1, f, none)
  else do
    let (len, f, buff) ← framePack f ((List.range PACKET_BUFF_SIZE).map junk) PACKET_BUFF_SIZE
    if len = -1 then .ok (-1, f, none)
    else if len < 0 then .error (.oobRead PACKET_BUFF_SIZE PACKET_BUFF_SIZE)
    else if wret len.toNat = len then .ok (0, f, some (buff.take len.toNat))
    else .ok (-1, f, some (buff.take len.toNat))

end Mbus
