import Verif.Model.Session
import Verif.Model.Value
/-
Model of the handle life cycle: mbus-protocol-aux.c:1504-1633 (`mbus_context_serial`, `mbus_context_tcp`, `mbus_context_free`,
`mbus_connect`, `mbus_disconnect`), mbus-serial.c:33-227, mbus-tcp.c:36-145, 263-276.
The operating system (results of malloc, strdup, open, socket, connect, getaddrinfo, tcsetattr) is an input of each function.
-/
namespace Mbus

/-- What the process holds: live heap blocks (`next` is the next fresh block) and open descriptors with their owner (this handle, or anything else in the process). -/
structure Proc where
  next : Nat
  live : List Nat
  fds : List (Int × Bool)    -- descriptor, opened through the handle under consideration?
  deriving DecidableEq, Repr

/-- `malloc`/`strdup`; `ok` is the operating system's answer. -/
def Proc.alloc (p : Proc) (ok : Bool) : Option Nat × Proc :=
  if ok then (some p.next, { p with next := p.next + 1, live := p.next :: p.live }) else (none, p)

/-- `free` of a block. -/
def Proc.free (p : Proc) (a : Nat) : C Proc :=
  if a ∈ p.live then .ok { p with live := p.live.erase a } else .error .doubleFree

/-- `open`/`socket` answered with descriptor `d`. -/
def Proc.opened (p : Proc) (d : Int) (mine : Bool) : Proc := { p with fds := (d, mine) :: p.fds }

/-- `close(d)`: whoever opened `d`, it is closed. -/
def Proc.close (p : Proc) (d : Int) : Proc := { p with fds := p.fds.filter fun x => decide (x.1 ≠ d) }

/-- The fields of `struct termios` the library uses: speed and VTIME (tenths of a second). -/
structure Term where
  speed : Int
  vtime : Nat
  deriving DecidableEq, Repr

/-- mbus-protocol-aux.h:86-102 `mbus_handle` with its auxiliary data (mbus-serial.h:30-34, mbus-tcp.h:29-33):
`self`, `aux`, `name` are the heap blocks of the handle, of the auxiliary data and of the device or host name.
Simplification: the function pointers are represented by `serial`. -/
structure Hnd where
  self : Nat
  aux : Nat
  name : Nat
  serial : Bool
  fd : Int
  st : Settings
  term : Term
  deriving DecidableEq, Repr

/-- mbus-protocol-aux.c:1504-1550 `mbus_context_serial`, 1552-1599 `mbus_context_tcp`: `a1 a2 a3` are the answers to the three
allocations, `fd0`, `t0` what the uninitialised fields of the new blocks contain. -/
def contextNew (serial a1 a2 a3 : Bool) (fd0 : Int) (t0 : Term) (p : Proc) : C (Option Hnd × Proc) := do
  let (b1, p) := p.alloc a1
  match b1 with
  | none => .ok (none, p)
  | some self => do
    let (b2, p) := p.alloc a2
    match b2 with
    | none => do
      let p ← p.free self
      .ok (none, p)
    | some aux => do
      let (b3, p) := p.alloc a3
      match b3 with
      | none => do
        let p ← p.free aux
        let p ← p.free self
        .ok (none, p)
      | some name => .ok (some ⟨self, aux, name, serial, fd0, Settings.default, t0⟩, p)

/-- mbus-protocol-aux.c:1601-1609 `mbus_context_free` with mbus-serial.c:209-227 `mbus_serial_data_free` / mbus-tcp.c:105-123 `mbus_tcp_data_free`. -/
def contextFree (h : Option Hnd) (p : Proc) : C Proc :=
  match h with
  | none => .ok p
  | some h => do
    let p ← p.free h.name
    let p ← p.free h.aux
    p.free h.self

/-- mbus-serial.c:33-96 `mbus_serial_connect`: `d` is the answer of `open` (negative: failure). -/
def serialConnect (h : Hnd) (d : Int) (p : Proc) : Int × Hnd × Proc :=
  if d < 0 then (-1, { h with fd := d }, p)
  else (0, { h with fd := d, term := ⟨2400, 3⟩ }, p.opened d true)

/-- mbus-tcp.c:67-81, the loop over the addresses: each answer is `none` (`socket` failed) or the descriptor with the success of
`connect`. -/
def connectLoop : List (Option (Int × Bool)) → (fd : Int) → Proc → Bool × Int × Proc
  | [], fd, p => (false, fd, p)
  | none :: rs, _, p => connectLoop rs (-1) p
  | some (d, ok) :: rs, _, p =>
      if ok then (true, d, p.opened d true) else connectLoop rs d ((p.opened d true).close d)

/-- mbus-tcp.c:36-100 `mbus_tcp_connect`: `gai` is the success of `getaddrinfo` (the results of setsockopt are ignored there). -/
def tcpConnect (h : Hnd) (gai : Bool) (rs : List (Option (Int × Bool))) (p : Proc) : Int × Hnd × Proc :=
  if gai then
    let (ok, fd, p) := connectLoop rs h.fd p
    if ok then (0, { h with fd := fd }, p) else (-1, { h with fd := fd }, p)
  else (-1, h, p)

/-- mbus-serial.c:188-206 `mbus_serial_disconnect`, mbus-tcp.c:128-145 `mbus_tcp_disconnect` -/
def disconnect (h : Hnd) (p : Proc) : Int × Hnd × Proc :=
  if h.fd < 0 then (-1, h, p) else (0, { h with fd := -1 }, p.close h.fd)

/-- The operating system's answers to one connection attempt: `open` of a device; `getaddrinfo` and the sockets. -/
structure OsAnswer where
  dev : Int
  gai : Bool
  socks : List (Option (Int × Bool))
  deriving DecidableEq, Repr

/-- mbus-protocol-aux.c:1611-1621 `mbus_connect`: dispatch on the kind of handle. -/
def connect (h : Hnd) (a : OsAnswer) (p : Proc) : Int × Hnd × Proc :=
  if h.serial then serialConnect h a.dev p else tcpConnect h a.gai a.socks p

/-- mbus-tcp.c:56: the port text, `snprintf(port, 6, "%d", port)` with `uint16_t port`. -/
def portText (port : Nat) : List Byte := (fmtInt port).take 5

/-- mbus-serial.c:115-155: the speed constant and VTIME of a baud rate; `none`: not supported. -/
def baudTerm (baud : Int) : Option Term :=
  if baud = 300 then some ⟨300, 13⟩
  else if baud = 600 then some ⟨600, 8⟩
  else if baud = 1200 then some ⟨1200, 5⟩
  else if baud = 2400 then some ⟨2400, 3⟩
  else if baud = 4800 then some ⟨4800, 3⟩
  else if baud = 9600 then some ⟨9600, 2⟩
  else if baud = 19200 then some ⟨19200, 2⟩
  else if baud = 38400 then some ⟨38400, 2⟩
  else none

/-- mbus-serial.c:101-180 `mbus_serial_set_baudrate` on a serial handle: `ok` is the success of `tcsetattr`, `line` the settings in
force on the line before and after. `cfsetispeed/cfsetospeed` succeed for the constants used. -/
def setBaudrate (h : Hnd) (baud : Int) (ok : Bool) (line : Term) : Int × Hnd × Term :=
  match baudTerm baud with
  | none => (-1, h, line)
  | some t => if ok then (0, { h with term := t }, t) else (-1, { h with term := t }, line)

/-- mbus-tcp.c:263-276 `mbus_tcp_set_timeout_set(seconds)`: the two statics before and after. A conversion to `int` of a value out
of range (or NaN) is undefined. -/
def setTimeout (seconds : Flt) (s : Int × Int) : C (Int × (Int × Int)) :=
  match seconds with
  | .fin neg m =>
      if neg ∧ 0 < m then .ok (-1, s)
      else if m < 2147483648 then
        .ok (0, (m.floor, (dbl (dbl (m - (m.floor : Rat)) * 1000000)).floor))
      else .error .overflow
  | .inf neg => if neg then .ok (-1, s) else .error .overflow
  | .nan _ => .error .overflow

end Mbus
