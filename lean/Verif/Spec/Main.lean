import Verif.Model.Main
import Verif.Spec.Tools
import Verif.Spec.Lifecycle
/-
The command lines of the tools as bin/libmbus.pod (SYNOPSIS, OPTIONS) documents them.
-/
namespace Mbus.Spec

/-- `[-d]` -/
def flag (on : Bool) : List Arg := if on then [cs! "-d"] else []

/-- an optional option with an argument -/
def opt (name : Arg) : Option Arg → List Arg
  | none => []
  | some v => [name, v]

/-- an optional last operand -/
def maybe : Option Arg → List Arg
  | none => []
  | some v => [v]

/-- "If not used then default baudrate of 9600 will be used." -/
def rate : Option Arg → Int
  | none => 9600
  | some t => atol t

/-- no retransmissions unless asked for -/
def tries : Option Arg → Int
  | none => 0
  | some t => atoi t

/-- "address mask on the form 'FFFFFFFFFFFFFFFF' where F is a wildcard character" -/
def mask : Option Arg → Arg
  | none => cs! "FFFFFFFFFFFFFFFF"
  | some t => t

/-- the subcode of an application reset; -1: none -/
def subcode : Option Arg → Int
  | none => -1
  | some t => atoi t

/-- the text to send: the content of a file (`none`: it cannot be opened) or of standard input -/
def input (files : Arg → Option (List Byte)) (stdin : List Byte) : Option Arg → Option (List Byte)
  | none => some stdin
  | some f => files f

/-- the options of the multi-reply tools, which may come in any order and repeatedly: the last one counts -/
inductive MultiOption where
  | debug
  | baud (value : Arg)
  | frames (value : Arg)

def MultiOption.words : MultiOption → List Arg
  | .debug => [cs! "-d"]
  | .baud v => [cs! "-b", v]
  | .frames v => [cs! "-f", v]

def MultiOption.apply (c : Asked) : MultiOption → Asked
  | .debug => { c with debug := true }
  | .baud v => { c with baud := atol v }
  | .frames v => { c with frames := atoi v }

/-- the operating system grants the handle (three blocks of memory) and the connection: the device can be opened, the line speed is one of
those in OPTIONS, -b, and can be set; the port is a port number, the host has addresses, and one accepts the connection -/
def Usable (os : Os) (t : Target) : Prop :=
  (os.a1 = true ∧ os.a2 = true ∧ os.a3 = true) ∧
  match t with
  | .serial _ baud => 0 ≤ os.answer.dev ∧ os.tcset = true ∧ baud ∈ [300, 600, 1200, 2400, 4800, 9600, 19200, 38400]
  | .tcp _ port => (0 ≤ port ∧ port ≤ 65535) ∧ os.answer.gai = true ∧ ∃ d, some (d, true) ∈ os.answer.socks

/-- the bus behind each target -/
def wired (buses : Target → Env) (t : Target) (purge : Int) : Ops Bus :=
  (busLink (match t with | .serial .. => .serial | .tcp .. => .tcp) (buses t)).ops purge

/-- the program ended with status 0, printed `text`, transmitted `sent`, and released all it had taken from the process -/
def Succeeds (x : C (Ran Bus)) (p : Proc) (text : List Byte) (sent : List (List Byte)) : Prop :=
  ∃ p', x = .ok ⟨0, text, ⟨[], sent⟩, some p'⟩ ∧ p'.live = p.live ∧ p'.fds = p.fds

/-- how a program ends after its work on the connected handle: with the status of the work; after status 0 the process holds `p'` -/
def ending {σ : Type} (p' : Proc) (text : List Byte) (e : Exit σ) : Ran σ := ⟨e.code, text, e.state, if e.code = 0 then some p' else none⟩

/-- what a program has printed and released after its work -/
def report {σ : Type} (uninit : Buf 256) (searched : Arg) (p' : Proc) (x : C (Exit σ)) : C (Ran σ) :=
  x >>= fun e => stdoutText uninit searched e.out >>= fun t => .ok (ending p' t e)

/-- what a scan for primary addresses prints about address `a`, if there are meters at the addresses `addrs` -/
def scanReport (addrs : List Byte) (a : Nat) : List Byte :=
  match (addrs.filter (·.toNat = a)).length with
  | 0 => []
  | 1 => cs! "Found a M-Bus device at address " ++ fmtInt a ++ cs! "\n"
  | _ => cs! "Collision at address " ++ fmtInt a ++ cs! "\n"

/-- what a scan for secondary addresses prints about a meter -/
def deviceReport (address mask : List Byte) : List Byte :=
  cs! "Found a device on secondary address " ++ address ++ cs! " [using address mask " ++ mask ++ cs! "]\n"

/-- what a reset prints -/
def resetReport (sub : Int) : List Byte :=
  if 0 ≤ sub then cs! "Successful reset device (Subcode: " ++ fmtInt sub ++ cs! ")\n" else cs! "Successful reset device\n"

/-- what a selection prints: the address searched for and the address of the meter -/
def replyReport (searched found : List Byte) : List Byte :=
  cs! "Recieved a reply from secondarily addressed device: Searched for [" ++ searched ++ cs! "] and found [" ++ found ++ cs! "].\n"

/-- the program ended with status `code`, printed `text` and transmitted `sent` -/
def Fails (x : C (Ran Bus)) (code : Int) (text : List Byte) (sent : List (List Byte)) : Prop :=
  code ≠ 0 ∧ ∃ h, x = .ok ⟨code, text, ⟨[], sent⟩, h⟩

end Mbus.Spec
