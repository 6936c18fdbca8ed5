import Verif.Model.Lifecycle
/-
Model of the terminal settings of a serial handle: mbus-serial.c:33-206 on full `struct termios` values, for Linux (the flag values of
<asm-generic/termbits.h>, the speed functions of glibc).  Model/Lifecycle.lean has the same functions with the descriptors and memory of the
process, but only speed and VTIME.
-/
namespace Mbus

/-- `struct termios`: the four flag words, `c_cc` (32 entries; here a function of the index) and the two speeds. -/
structure Termios where
  iflag : BitVec 32
  oflag : BitVec 32
  cflag : BitVec 32
  lflag : BitVec 32
  cc : Nat → Byte
  ispeed : BitVec 32
  ospeed : BitVec 32

def CS8 : BitVec 32 := 0x30
def CREAD : BitVec 32 := 0x80
def PARENB : BitVec 32 := 0x100
def CLOCAL : BitVec 32 := 0x800
/-- CBAUD with CBAUDEX -/
def CBAUD : BitVec 32 := 0x100F
def IBAUD0 : BitVec 32 := 0x80000000
def VTIME : Nat := 5
def VMIN : Nat := 6
def B300 : BitVec 32 := 7
def B600 : BitVec 32 := 8
def B1200 : BitVec 32 := 9
def B2400 : BitVec 32 := 11
def B4800 : BitVec 32 := 12
def B9600 : BitVec 32 := 13
def B19200 : BitVec 32 := 14
def B38400 : BitVec 32 := 15

/-- `memset(term, 0, sizeof(*term))` -/
def Termios.zero : Termios := ⟨0, 0, 0, 0, fun _ => 0, 0, 0⟩

/-- `term->c_cc[i] = v` -/
def Termios.setCc (t : Termios) (i : Nat) (v : Byte) : Termios := { t with cc := fun j => if j = i then v else t.cc j }

/-- glibc `cfsetospeed` for one of the constants above (it succeeds). -/
def Termios.setOspeed (t : Termios) (s : BitVec 32) : Termios := { t with ospeed := s, cflag := (t.cflag &&& ~~~CBAUD) ||| s }

/-- glibc `cfsetispeed` for one of the constants above (it succeeds; none of them is B0). -/
def Termios.setIspeed (t : Termios) (s : BitVec 32) : Termios :=
  { t with ispeed := s, iflag := t.iflag &&& ~~~IBAUD0, cflag := (t.cflag &&& ~~~CBAUD) ||| s }

/-- The terminals of the system: which device a descriptor refers to, and the settings in force on each device. -/
structure Ports where
  fds : Int → Option Nat
  line : Nat → Termios

/-- A serial handle (mbus-protocol-aux.h:86-102 with mbus-serial.h:30-34): the device of its name, `fd`, `serial_data->t`. -/
structure SerialHnd where
  device : Nat
  fd : Int
  t : Termios

/-- `tcsetattr(fd, TCSANOW, t)`: fails on a descriptor that is not a terminal, and may fail otherwise (`ok`).  Simplification: when it succeeds all
requested settings are in force. -/
def Ports.tcsetattr (w : Ports) (fd : Int) (t : Termios) (ok : Bool) : Int × Ports :=
  match w.fds fd with
  | none => (-1, w)
  | some k => if ok then (0, { w with line := fun j => if j = k then t else w.line j }) else (-1, w)

/-- mbus-serial.c:62-88: the settings for a new connection. -/
def connectTermios : Termios :=
  let t := Termios.zero
  let t := { t with cflag := t.cflag ||| (CS8 ||| CREAD ||| CLOCAL) }
  let t := { t with cflag := t.cflag ||| PARENB }
  let t := t.setCc VMIN 0
  let t := t.setCc VTIME 3
  let t := t.setIspeed B2400
  t.setOspeed B2400

/-- mbus-serial.c:33-96 `mbus_serial_connect`: `d` is the answer of `open` (negative: failure), `ok` of `tcsetattr` (its result is not looked at). -/
def lineConnect (h : SerialHnd) (d : Int) (ok : Bool) (w : Ports) : Int × SerialHnd × Ports :=
  if d < 0 then (-1, { h with fd := d }, w)
  else
    let w := { w with fds := fun x => if x = d then some h.device else w.fds x }
    let (_, w) := w.tcsetattr d connectTermios ok
    (0, { h with fd := d, t := connectTermios }, w)

/-- mbus-serial.c:115-155: the speed constant and VTIME of a baud rate; `none`: not supported. -/
def baudSpeed (baud : Int) : Option (BitVec 32 × Byte) :=
  if baud = 300 then some (B300, 13)
  else if baud = 600 then some (B600, 8)
  else if baud = 1200 then some (B1200, 5)
  else if baud = 2400 then some (B2400, 3)
  else if baud = 4800 then some (B4800, 3)
  else if baud = 9600 then some (B9600, 2)
  else if baud = 19200 then some (B19200, 2)
  else if baud = 38400 then some (B38400, 2)
  else none

/-- mbus-serial.c:101-180 `mbus_serial_set_baudrate` -/
def lineBaud (h : SerialHnd) (baud : Int) (ok : Bool) (w : Ports) : Int × SerialHnd × Ports :=
  match baudSpeed baud with
  | none => (-1, h, w)
  | some (s, v) =>
    let t := ((h.t.setCc VTIME v).setIspeed s).setOspeed s
    let (r, w) := w.tcsetattr h.fd t ok
    (if r ≠ 0 then -1 else 0, { h with t := t }, w)

/-- mbus-serial.c:188-206 `mbus_serial_disconnect` -/
def lineDisconnect (h : SerialHnd) (w : Ports) : Int × SerialHnd × Ports :=
  if h.fd < 0 then (-1, h, w)
  else (0, { h with fd := -1 }, { w with fds := fun x => if x = h.fd then none else w.fds x })

end Mbus
