import Verif.Model.Bus
/-
The receive functions of the two transports again, counting their `read` system calls (Model/Transport has the same functions
without the count; `serialLoopR_eq`, `tcpLoopR_eq` in Lemmas/Reads say that nothing else changes).  A `read` waits until something
arrives or its timeout (VTIME of the serial line, receive timeout of the socket) is over, so the number of reads is the number of
waits: the unit in which the duration of a call is measured here.
-/
namespace Mbus

set_option linter.unusedVariables false in
/-- mbus-tcp.c:204-255: the loop and the tail of `mbus_tcp_recv_frame`; `n` reads were made before. -/
def tcpLoopR (es : List Ev) (f : Frame) (buff : List Byte) (len m n : Nat) : C (RecvOut × Nat) :=
  if len + (m + 1) > PACKET_BUFF_SIZE then .ok (⟨RECV_ERROR, f, es, none⟩, n)
  else
    match h : readEv (m + 1) es with
    | (none, es') => .ok (⟨RECV_TIMEOUT, f, es', none⟩, n + 1)
    | (some .eintr, es') => tcpLoopR es' f buff len m (n + 1)
    | (some .eagain, es') => .ok (⟨RECV_TIMEOUT, f, es', none⟩, n + 1)
    | (some .err, es') => .ok (⟨RECV_ERROR, f, es', none⟩, n + 1)
    | (some (.data bs), es') =>
      if bs.length = 0 then .ok (⟨RECV_RESET, f, es', none⟩, n + 1)
      else
        match store buff len bs with
        | .error e => .error e
        | .ok buff =>
          let len := len + bs.length
          match mbusParse f buff len with
          | .error e => .error e
          | .ok (remaining, f) =>
            if remaining > 0 then tcpLoopR es' f buff len (remaining.toNat - 1) (n + 1)
            else .ok (⟨if remaining < 0 then RECV_INVALID else RECV_OK, f, es', some (buff.take len)⟩, n + 1)
termination_by evWeight es
decreasing_by
  · exact readEv_weight _ _ _ _ h
  · exact readEv_weight _ _ _ _ h

set_option linter.unusedVariables false in
/-- mbus-serial.c:316-355: the loop of `mbus_serial_recv_frame`; `n` reads were made before. -/
def serialLoopR (es : List Ev) (f : Frame) (buff : List Byte) (len m timeouts n : Nat) : C (RecvOut × Nat) :=
  if len + (m + 1) > PACKET_BUFF_SIZE then .ok (⟨RECV_ERROR, f, es, none⟩, n)
  else
    match h : readEv (m + 1) es with
    | (none, es') =>
      if 3 ≤ timeouts + 1 then .ok (serialTail f es' buff len (m + 1), n + 1)
      else
        match mbusParse f buff len with
        | .error e => .error e
        | .ok (remaining, f) =>
          if remaining > 0 then serialLoopR es' f buff len (remaining.toNat - 1) (timeouts + 1) (n + 1)
          else .ok (serialTail f es' buff len remaining, n + 1)
    | (some (.data bs), es') =>
      let timeouts := if bs.length = 0 then timeouts + 1 else timeouts
      if bs.length = 0 ∧ 3 ≤ timeouts then .ok (serialTail f es' buff len (m + 1), n + 1)
      else
        match store buff len bs with
        | .error e => .error e
        | .ok buff =>
          let len := len + bs.length
          match mbusParse f buff len with
          | .error e => .error e
          | .ok (remaining, f) =>
            if remaining > 0 then serialLoopR es' f buff len (remaining.toNat - 1) timeouts (n + 1)
            else .ok (serialTail f es' buff len remaining, n + 1)
    | (some _, es') => .ok (⟨RECV_ERROR, f, es', none⟩, n + 1)
termination_by evWeight es + (3 - timeouts)
decreasing_by
  · have : es' = es := by
      cases es with
      | nil => simp [readEv] at h; exact h
      | cons a es => cases a <;> simp [readEv] at h
    subst this; omega
  · have := readEv_weight _ _ _ _ h; split <;> omega

/-- mbus-tcp.c:190-256, mbus-serial.c:287-382: `handle->recv` for the two kinds of handles, with the number of reads. -/
def kindRecvR (k : Kind) (tty : Bool) (es : List Ev) (f : Frame) : C (RecvOut × Nat) :=
  match k with
  | .tcp => tcpLoopR es f (List.replicate PACKET_BUFF_SIZE 0) 0 0 0
  | .serial => if tty then serialLoopR es f (List.replicate PACKET_BUFF_SIZE 0) 0 0 0 0 else .ok (⟨RECV_ERROR, f, es, none⟩, 0)

end Mbus
