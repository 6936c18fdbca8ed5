import Verif.Model.Termios
import Verif.Spec.Lifecycle
/-
Specification vocabulary for C110: what the bits of a terminal setting mean (termios(3)), and histories of one serial handle.
-/
namespace Mbus
namespace Spec

/-- The speed a termios speed code stands for. -/
def speedOf (s : BitVec 32) : Option Nat :=
  [(1, 50), (2, 75), (3, 110), (4, 134), (5, 150), (6, 200), (7, 300), (8, 600), (9, 1200), (10, 1800), (11, 2400), (12, 4800), (13, 9600), (14, 19200), (15, 38400)].lookup s.toNat

/-- The line is set as EN 13757-2 asks for: 8 data bits, parity bit, even parity, one stop bit, receiver on, no modem control; no translation or
interpretation of characters in either direction (all input, output and local modes off: raw); reading waits for the first byte no longer than VTIME tenths
of a second, which is long enough for an answer of the meter; both directions at `baud`. -/
structure Line8E1 (t : Termios) (baud : Int) : Prop where
  bits : (t.cflag.toNat / 16) % 4 = 3
  stop : t.cflag.toNat.testBit 6 = false
  receiver : t.cflag.toNat.testBit 7 = true
  parity : t.cflag.toNat.testBit 8 = true
  even : t.cflag.toNat.testBit 9 = false
  hangup : t.cflag.toNat.testBit 10 = false
  localLine : t.cflag.toNat.testBit 11 = true
  flow : t.cflag.toNat.testBit 31 = false
  rawIn : t.iflag = 0
  rawOut : t.oflag = 0
  rawLocal : t.lflag = 0
  vmin : t.cc 6 = 0
  wait : Covers baud (t.cc 5).toNat
  input : speedOf t.ispeed = some baud.toNat
  output : speedOf t.ospeed = some baud.toNat
  both : speedOf (t.cflag &&& 0x100F) = some baud.toNat

/-- What can happen: calls on the handle with the answers of the operating system (`open`: descriptor; `tcsetattr`: success), other code opening or closing a
descriptor or changing the settings of another device. -/
inductive LineEv where
  | connect (d : Int) (ok : Bool)
  | baud (b : Int) (ok : Bool)
  | disconnect
  | otherFd (d : Int) (dev : Option Nat)
  | otherLine (dev : Nat) (t : Termios)

/-- Histories: `open` answers with a descriptor that is not open; other code leaves the handle's descriptor and the settings of its device alone. -/
inductive LineHistory : SerialHnd → Ports → List LineEv → SerialHnd → Ports → Prop
  | nil {h w} : LineHistory h w [] h w
  | connect {h w d ok r h' w' es h'' w''} : (0 ≤ d → w.fds d = none) → lineConnect h d ok w = (r, h', w') →
      LineHistory h' w' es h'' w'' → LineHistory h w (.connect d ok :: es) h'' w''
  | baud {h w b ok r h' w' es h'' w''} : lineBaud h b ok w = (r, h', w') → LineHistory h' w' es h'' w'' → LineHistory h w (.baud b ok :: es) h'' w''
  | disconnect {h w r h' w' es h'' w''} : lineDisconnect h w = (r, h', w') → LineHistory h' w' es h'' w'' → LineHistory h w (.disconnect :: es) h'' w''
  | otherFd {h w d dev es h' w'} : d ≠ h.fd → 0 ≤ d → LineHistory h { w with fds := fun x => if x = d then dev else w.fds x } es h' w' →
      LineHistory h w (.otherFd d dev :: es) h' w'
  | otherLine {h w k t es h' w'} : k ≠ h.device → LineHistory h { w with line := fun j => if j = k then t else w.line j } es h' w' →
      LineHistory h w (.otherLine k t :: es) h' w'

/-- The rates a meter can be switched to. -/
def rates : List Int := [300, 600, 1200, 2400, 4800, 9600, 19200, 38400]

/-- What the application may assume after the events: whether it is connected, and the rate: 2400 from the connection on, or the last accepted rate.
`none`: not known, because the connection could not set the line and no rate was accepted since. -/
def expected : Bool × Option Int → List LineEv → Bool × Option Int
  | s, [] => s
  | _, .connect d ok :: es => expected (decide (0 ≤ d), if 0 ≤ d ∧ ok then some 2400 else none) es
  | (up, r), .baud b ok :: es => expected (up, if up ∧ ok ∧ b ∈ rates then some b else r) es
  | _, .disconnect :: es => expected (false, none) es
  | s, _ :: es => expected s es

/-- The settings of the other devices after the events, if the library never touches them. -/
def untouched : (Nat → Termios) → List LineEv → Nat → Termios
  | l, [] => l
  | l, .otherLine k t :: es => untouched (fun j => if j = k then t else l j) es
  | l, _ :: es => untouched l es

/-- A system where negative numbers are no descriptors. -/
def PortsOk (w : Ports) : Prop := ∀ d < 0, w.fds d = none

end Spec
end Mbus
