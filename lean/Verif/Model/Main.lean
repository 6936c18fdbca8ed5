import Verif.Model.Debug
import Verif.Model.Print
import Verif.Model.Lifecycle
/-
The command line tools in bin/ as whole programs: from `argv` to the exit status and the text on standard output.  The part between
connecting and disconnecting is the model of the tool on a connected handle (Model/Tools.lean).
Not modelled: messages and the dumps of option -d on standard error (Model/Events.lean), what a failing program releases before it ends.
-/
namespace Mbus

/-- a command line argument (without the terminating NUL) -/
abbrev Arg := List Byte

/-- C library `atol` (glibc: `strtol(s, NULL, 10)` with 64-bit `long`, which saturates) -/
def atol (s : List Byte) : Int :=
  let s := s.dropWhile isSpace
  let (neg, s) := match s with
    | c :: t => if c = 45 then (true, t) else if c = 43 then (false, t) else (false, c :: t)
    | [] => (false, [])
  let n : Nat := (s.takeWhile isDigit).foldl (fun a c => 10 * a + (c.toNat - 48)) 0
  if neg then max (-(2 ^ 63)) (-(n : Int)) else min (2 ^ 63 - 1) n

/-- What `main` takes from the command line: `target` is the device or the host, `operands` the arguments behind it (behind the port). -/
structure Asked where
  debug : Bool := false
  baud : Int := 9600
  retries : Int := 0
  frames : Int := 16
  target : Arg
  port : Int := 0
  operands : List Arg := []
  deriving DecidableEq

/-! ### command lines (the arguments behind the program name; `none`: the usage message) -/

/-- mbus-serial-request-data.c:63-97 -/
def serialRequestArgs : List Arg → Option Asked
  | [a1, a2] => some { target := a1, operands := [a2] }
  | [a1, a2, a3] => if a1 = cs! "-d" then some { target := a2, operands := [a3], debug := true } else none
  | [a1, a2, a3, a4] => if a1 = cs! "-b" then some { baud := atol a2, target := a3, operands := [a4] } else none
  | [a1, a2, a3, a4, a5] =>
      if a1 = cs! "-d" ∧ a2 = cs! "-b" then some { baud := atol a3, target := a4, operands := [a5], debug := true } else none
  | _ => none

/-- mbus-serial-request-data-multi-reply.c:78-107, mbus-tcp-request-data-multi-reply.c:78-102: the loop over the options; the list is
`argv[c..]`, `k` operands follow the options (2 or 3).  Only the serial tool knows -b. -/
def multiLoop (serial : Bool) (k : Nat) : (rest : List Arg) → (debug : Bool) → (baud frames : Int) → Option (Bool × Int × Int × List Arg)
  | [], d, b, f => if 0 < k then none else some (d, b, f, [])
  | a :: rest, d, b, f =>
      if k < rest.length + 1 then
        if a = cs! "-d" then multiLoop serial k rest true b f
        else if serial ∧ a = cs! "-b" then
          match rest with
          | x :: rest => multiLoop serial k rest d (atol x) f
          | [] => none
        else if a = cs! "-f" then
          match rest with
          | x :: rest => multiLoop serial k rest d b (atoi x)
          | [] => none
        else none
      else if rest.length + 1 < k then none
      else some (d, b, f, a :: rest)

/-- mbus-serial-request-data-multi-reply.c:78-107 -/
def serialMultiArgs (args : List Arg) : Option Asked :=
  match multiLoop true 2 args false 9600 16 with
  | some (d, b, f, [device, addr]) => some { debug := d, baud := b, frames := f, target := device, operands := [addr] }
  | _ => none

/-- mbus-tcp-request-data-multi-reply.c:78-102 -/
def tcpMultiArgs (args : List Arg) : Option Asked :=
  match multiLoop false 3 args false 9600 16 with
  | some (d, _, f, [host, port, addr]) => some { debug := d, frames := f, target := host, port := atol port, operands := [addr] }
  | _ => none

/-- `strdup("FFFFFFFFFFFFFFFF")` -/
def anyMask : Arg := cs! "FFFFFFFFFFFFFFFF"

/-- mbus-serial-scan-secondary.c:60-117 -/
def serialScanSecondaryArgs : List Arg → Option Asked
  | [a1] => some { target := a1, operands := [anyMask] }
  | [a1, a2] => if a1 = cs! "-d" then some { target := a2, operands := [anyMask], debug := true } else some { target := a1, operands := [a2] }
  | [a1, a2, a3] =>
      if a1 = cs! "-d" then some { target := a2, operands := [a3], debug := true }
      else if a1 = cs! "-b" then some { baud := atol a2, target := a3, operands := [anyMask] }
      else none
  | [a1, a2, a3, a4] =>
      if a1 = cs! "-d" ∧ a2 = cs! "-b" then some { baud := atol a3, target := a4, operands := [anyMask], debug := true }
      else if a1 = cs! "-b" then some { baud := atol a2, target := a3, operands := [a4] }
      else none
  | [a1, _, a3, a4, a5] => if a1 = cs! "-d" then some { baud := atol a3, target := a4, operands := [a5], debug := true } else none
  | _ => none

/-- mbus-serial-scan.c:61-116 -/
def serialScanArgs : List Arg → Option Asked
  | [a1] => some { target := a1 }
  | [a1, a2] => if a1 = cs! "-d" then some { debug := true, target := a2 } else none
  | [a1, a2, a3] =>
      if a1 = cs! "-b" then some { baud := atol a2, target := a3 }
      else if a1 = cs! "-r" then some { retries := atoi a2, target := a3 }
      else none
  | [a1, a2, a3, a4] =>
      if a1 = cs! "-d" ∧ a2 = cs! "-b" then some { debug := true, baud := atol a3, target := a4 }
      else if a1 = cs! "-d" ∧ a2 = cs! "-r" then some { debug := true, retries := atoi a3, target := a4 }
      else none
  | [a1, a2, a3, a4, a5] => if a1 = cs! "-b" ∧ a3 = cs! "-r" then some { baud := atol a2, retries := atoi a4, target := a5 } else none
  | [a1, a2, a3, a4, a5, a6] =>
      if a1 = cs! "-d" ∧ a2 = cs! "-b" ∧ a4 = cs! "-r" then some { debug := true, baud := atol a3, retries := atoi a5, target := a6 } else none
  | _ => none

/-- mbus-serial-select-secondary.c:29-47 -/
def serialSelectArgs : List Arg → Option Asked
  | [a1, a2] => some { target := a1, operands := [a2] }
  | [a1, a2, a3, a4] => if a1 = cs! "-b" then some { baud := atol a2, target := a3, operands := [a4] } else none
  | _ => none

/-- mbus-serial-set-address.c:59-94 -/
def setAddressArgs : List Arg → Option Asked
  | [a1, a2, a3] => some { target := a1, operands := [a2, a3] }
  | [a1, a2, a3, a4] => if a1 = cs! "-d" then some { target := a2, operands := [a3, a4], debug := true } else none
  | [a1, a2, a3, a4, a5] => if a1 = cs! "-b" then some { baud := atol a2, target := a3, operands := [a4, a5] } else none
  | [a1, a2, a3, a4, a5, a6] =>
      if a1 = cs! "-d" ∧ a2 = cs! "-b" then some { baud := atol a3, target := a4, operands := [a5, a6], debug := true } else none
  | _ => none

/-- mbus-serial-switch-baudrate.c:32-49 -/
def switchBaudArgs : List Arg → Option Asked
  | [a1, a2, a3] => some { target := a1, operands := [a2, a3] }
  | [a1, a2, a3, a4, a5] => if a1 = cs! "-b" then some { baud := atol a2, target := a3, operands := [a4, a5] } else none
  | _ => none

/-- mbus-tcp-application-reset.c:32-64, mbus-tcp-raw-send.c:41-76: the last operand (subcode or file) is optional -/
def tcpOptionalArgs : List Arg → Option Asked
  | [a1, a2, a3] => some { target := a1, port := atol a2, operands := [a3] }
  | [a1, a2, a3, a4] =>
      if a1 = cs! "-d" then some { target := a2, port := atol a3, operands := [a4], debug := true }
      else some { target := a1, port := atol a2, operands := [a3, a4] }
  | [a1, a2, a3, a4, a5] => if a1 = cs! "-d" then some { target := a2, port := atol a3, operands := [a4, a5], debug := true } else none
  | _ => none

/-- mbus-tcp-request-data.c:35-54 -/
def tcpRequestArgs : List Arg → Option Asked
  | [a1, a2, a3] => some { target := a1, port := atol a2, operands := [a3] }
  | [a1, a2, a3, a4] => if a1 = cs! "-d" then some { target := a2, port := atol a3, operands := [a4], debug := true } else none
  | _ => none

/-- mbus-tcp-scan-secondary.c:31-48 -/
def tcpScanSecondaryArgs : List Arg → Option Asked
  | [a1, a2, a3] => some { target := a1, port := atol a2, operands := [a3] }
  | [a1, a2] => some { target := a1, port := atol a2, operands := [anyMask] }
  | _ => none

/-- mbus-tcp-scan.c:61-89 -/
def tcpScanArgs : List Arg → Option Asked
  | [a1, a2] => some { target := a1, port := atol a2 }
  | [a1, a2, a3] => if a1 = cs! "-d" then some { debug := true, target := a2, port := atol a3 } else none
  | [a1, a2, a3, a4] => if a1 = cs! "-r" then some { retries := atoi a2, target := a3, port := atol a4 } else none
  | [a1, a2, a3, a4, a5] =>
      if a1 = cs! "-d" ∧ a2 = cs! "-r" then some { debug := true, retries := atoi a3, target := a4, port := atol a5 } else none
  | _ => none

/-- mbus-tcp-select-secondary.c:29-36 -/
def tcpSelectArgs : List Arg → Option Asked
  | [a1, a2, a3] => some { target := a1, port := atol a2, operands := [a3] }
  | _ => none

/-! ### the text on standard output -/

/-- The text a tool prints for a line of output: mbus-serial-scan.c:155-172, mbus-serial-set-address.c:225, mbus-serial-switch-baudrate.c:91,
mbus-tcp-application-reset.c:154-162, mbus-serial-select-secondary.c:112, mbus-protocol-aux.c:2507 and the same lines in the tcp tools;
`searched` is the argument printed as the address searched for.  `uninit` is the uninitialised array of `mbus_frame_print`. -/
def lineText (uninit : Buf 256) (searched : Arg) : Line → C (List Byte)
  | .found a => .ok (cs! "Found a M-Bus device at address " ++ fmtInt a ++ cs! "\n")
  | .collision a => .ok (cs! "Collision at address " ++ fmtInt a ++ cs! "\n")
  | .addressSet a => .ok (cs! "Set primary address of device to " ++ fmtInt a ++ cs! "\n")
  | .baudSwitched b => .ok (cs! "Switched baud rate of device to " ++ fmtInt b ++ cs! "\n")
  | .reset c => .ok (if c > -1 then cs! "Successful reset device (Subcode: " ++ fmtInt c ++ cs! ")\n" else cs! "Successful reset device\n")
  | .reply a => .ok (cs! "Recieved a reply from secondarily addressed device: Searched for [" ++ searched ++ cs! "] and found [" ++ a ++ cs! "].\n")
  | .device a m => .ok (cs! "Found a device on secondary address " ++ a ++ cs! " [using address mask " ++ m ++ cs! "]\n")
  | .xml t => .ok t
  | .dump f => do
      let (_, t, _) ← framePrint uninit [f]
      .ok t
  | .note t => .ok t
  | .chain fs => do
      let (_, t, _) ← framePrint uninit fs
      .ok t

/-- the texts of all lines -/
def stdoutText (uninit : Buf 256) (searched : Arg) : List Line → C (List Byte)
  | [] => .ok []
  | l :: ls => do
      let t ← lineText uninit searched l
      let ts ← stdoutText uninit searched ls
      .ok (t ++ ts)

/-! ### running: `world` is what can be done on a handle connected to a target, for a value of the option MBUS_OPTION_PURGE_FIRST_FRAME -/

/-- what a handle can be connected to: a device at a line speed, or a port of a host -/
inductive Target where
  | serial (device : Arg) (baud : Int)
  | tcp (host : Arg) (port : Int)
  deriving DecidableEq

/-- The answers of the operating system to one run: the three allocations of the handle, the content of uninitialised fields, the connection
attempt, `tcsetattr`, the other allocations (`strdup` of the address, `mbus_frame_new`). -/
structure Os where
  a1 : Bool
  a2 : Bool
  a3 : Bool
  fd0 : Int
  t0 : Term
  answer : OsAnswer
  tcset : Bool
  dup : Bool
  frame : Bool

/-- a finished run: what `main` returns, standard output, the world outside, what the process still holds (`none`: it ended early) -/
structure Ran (σ : Type) where
  code : Int
  out : List Byte
  state : σ
  held : Option Proc

/-- The common end of the tools: `mbus_disconnect`, `mbus_context_free`, `return 0`. -/
def finish {σ : Type} (text : List Byte) (h : Hnd) (p : Proc) (e : Exit σ) : C (Ran σ) :=
  if e.code = 0 then
    match disconnect h p with
    | (_, h, p) => do
      let p ← contextFree (some h) p
      .ok ⟨0, text, e.state, some p⟩
  else .ok ⟨e.code, text, e.state, none⟩

/-- The common frame of the serial tools, e.g. mbus-serial-request-data.c:99-121 and 225-227: `mbus_context_serial`, `mbus_connect`,
`mbus_serial_set_baudrate`, the work, disconnecting.  (mbus-serial-scan.c sets the retry count, which `scanTool` does, before the baud rate; if
either fails it ends with status 1.) -/
def onSerial {σ : Type} (uninit : Buf 256) (os : Os) (world : Target → Int → Ops σ) (searched device : Arg) (baud : Int) (p : Proc) (s : σ)
    (work : Ops σ → Settings → σ → C (Exit σ)) : C (Ran σ) := do
  let (h, p) ← contextNew true os.a1 os.a2 os.a3 os.fd0 os.t0 p
  match h with
  | none => .ok ⟨1, [], s, none⟩
  | some h =>
    match connect h os.answer p with
    | (r, h, p) =>
      if r = -1 then .ok ⟨1, [], s, none⟩
      else
        match setBaudrate h baud os.tcset ⟨2400, 3⟩ with
        | (r, h, _) =>
          if r = -1 then .ok ⟨1, [], s, none⟩
          else do
            let e ← work (world (.serial device baud) h.st.purgeFirst) h.st s
            let t ← stdoutText uninit searched e.out
            finish t h p e

/-- The common frame of the tcp tools, e.g. mbus-tcp-request-data.c:56-78 and 158-160. -/
def onTcp {σ : Type} (uninit : Buf 256) (os : Os) (world : Target → Int → Ops σ) (searched host : Arg) (port : Int) (p : Proc) (s : σ)
    (work : Ops σ → Settings → σ → C (Exit σ)) : C (Ran σ) :=
  if port < 0 ∨ port > 0xFFFF then .ok ⟨1, [], s, none⟩
  else do
    let (h, p) ← contextNew false os.a1 os.a2 os.a3 os.fd0 os.t0 p
    match h with
    | none => .ok ⟨1, [], s, none⟩
    | some h =>
      match connect h os.answer p with
      | (r, h, p) =>
        if r = -1 then .ok ⟨1, [], s, none⟩
        else do
          let e ← work (world (.tcp host port) h.st.purgeFirst) h.st s
          let t ← stdoutText uninit searched e.out
          finish t h p e

/-- an operand (the pointers are set whenever the command line is accepted) -/
def Asked.operand (c : Asked) (i : Nat) : Arg := c.operands.getD i []

/-- the usage message -/
def usage {σ : Type} (code : Int) (p : Proc) (s : σ) : C (Ran σ) := .ok ⟨code, [], s, some p⟩

/-- `mbus-serial-request-data`: mbus-serial-request-data.c:50-228 -/
def serialRequestMain {σ : Type} (junk0 : Nat → Byte) (junk : Nat → Nat → Byte) (stamp : Option (List Byte)) (uninit : Buf 256) (os : Os)
    (world : Target → Int → Ops σ) (p : Proc) (s : σ) (args : List Arg) : C (Ran σ) :=
  match serialRequestArgs args with
  | none => usage 0 p s
  | some c => onSerial uninit os world [] c.target c.baud p s fun o _ s => requestToolD c.debug true junk0 junk stamp o s (c.operand 0)

/-- `mbus-tcp-request-data`: mbus-tcp-request-data.c:21-161 -/
def tcpRequestMain {σ : Type} (junk0 : Nat → Byte) (junk : Nat → Nat → Byte) (stamp : Option (List Byte)) (uninit : Buf 256) (os : Os)
    (world : Target → Int → Ops σ) (p : Proc) (s : σ) (args : List Arg) : C (Ran σ) :=
  match tcpRequestArgs args with
  | none => usage 0 p s
  | some c => onTcp uninit os world [] c.target c.port p s fun o _ s => requestToolD c.debug false junk0 junk stamp o s (c.operand 0)

/-- `mbus-serial-request-data-multi-reply`: mbus-serial-request-data-multi-reply.c:64-217 -/
def serialMultiMain {σ : Type} (junk0 : Nat → Byte) (junk : Nat → Nat → Byte) (stamps : Nat → Option (List Byte)) (uninit : Buf 256) (os : Os)
    (world : Target → Int → Ops σ) (p : Proc) (s : σ) (args : List Arg) : C (Ran σ) :=
  match serialMultiArgs args with
  | none => usage 1 p s
  | some c => onSerial uninit os world [] c.target c.baud p s fun o st s => multiToolD c.debug junk0 junk stamps o st s c.frames (c.operand 0)

/-- `mbus-tcp-request-data-multi-reply`: mbus-tcp-request-data-multi-reply.c:64-212 -/
def tcpMultiMain {σ : Type} (junk0 : Nat → Byte) (junk : Nat → Nat → Byte) (stamps : Nat → Option (List Byte)) (uninit : Buf 256) (os : Os)
    (world : Target → Int → Ops σ) (p : Proc) (s : σ) (args : List Arg) : C (Ran σ) :=
  match tcpMultiArgs args with
  | none => usage 1 p s
  | some c => onTcp uninit os world [] c.target c.port p s fun o st s => multiToolD c.debug junk0 junk stamps o st s c.frames (c.operand 0)

/-- `mbus-serial-scan`: mbus-serial-scan.c:52-179 -/
def serialScanMain {σ : Type} (uninit : Buf 256) (os : Os) (world : Target → Int → Ops σ) (p : Proc) (s : σ) (args : List Arg) : C (Ran σ) :=
  match serialScanArgs args with
  | none => usage 0 p s
  | some c => onSerial uninit os world [] c.target c.baud p s fun o st s => scanToolD c.debug o st s c.retries

/-- `mbus-tcp-scan`: mbus-tcp-scan.c:52-159 -/
def tcpScanMain {σ : Type} (uninit : Buf 256) (os : Os) (world : Target → Int → Ops σ) (p : Proc) (s : σ) (args : List Arg) : C (Ran σ) :=
  match tcpScanArgs args with
  | none => usage 0 p s
  | some c => onTcp uninit os world [] c.target c.port p s fun o st s => scanToolD c.debug o st s c.retries

/-- `mbus-serial-set-address`: mbus-serial-set-address.c:50-229; the new address is checked (96-110) before anything is opened. -/
def setAddressMain {σ : Type} (junk : Frame) (uninit : Buf 256) (os : Os) (world : Target → Int → Ops σ) (p : Proc) (s : σ) (args : List Arg) :
    C (Ran σ) :=
  match setAddressArgs args with
  | none => usage 0 p s
  | some c =>
    let new := atoi (c.operand 1)
    if isPrimaryAddress new = false ∨ new = 0xFD ∨ new = 0xFE ∨ new = 0xFF then .ok ⟨-1, [], s, none⟩
    else onSerial uninit os world [] c.target c.baud p s fun o _ s => setAddressToolD c.debug junk o s (c.operand 0) (c.operand 1)

/-- `mbus-serial-switch-baudrate`: mbus-serial-switch-baudrate.c:23-97 -/
def switchBaudMain {σ : Type} (junk : Frame) (wild : Bool) (uninit : Buf 256) (os : Os) (world : Target → Int → Ops σ) (p : Proc) (s : σ)
    (args : List Arg) : C (Ran σ) :=
  match switchBaudArgs args with
  | none => usage 0 p s
  | some c => onSerial uninit os world [] c.target c.baud p s fun o _ s => switchBaudTool junk wild o s (atoi (c.operand 0)) (atol (c.operand 1))

/-- the subcode argument of mbus-tcp-application-reset.c:30-58: -1 without it -/
def Asked.subcode (c : Asked) : Int :=
  match c.operands with
  | _ :: sub :: _ => atoi sub
  | _ => -1

/-- `mbus-tcp-application-reset`: mbus-tcp-application-reset.c:21-170 -/
def resetMain {σ : Type} (junk : Frame) (wild : Bool) (uninit : Buf 256) (os : Os) (world : Target → Int → Ops σ) (p : Proc) (s : σ)
    (args : List Arg) : C (Ran σ) :=
  match tcpOptionalArgs args with
  | none => usage 0 p s
  | some c => onTcp uninit os world [] c.target c.port p s fun o _ s => resetTool junk wild o s (c.operand 0) c.subcode

/-- mbus-tcp-raw-send.c:135-147: the content of the file named on the command line (`none`: it cannot be opened), or of standard input -/
def Asked.source (c : Asked) (files : Arg → Option (List Byte)) (stdin : List Byte) : Option (List Byte) :=
  match c.operands with
  | _ :: file :: _ => files file
  | _ => some stdin

/-- `mbus-tcp-raw-send`: mbus-tcp-raw-send.c:21-197; a file that cannot be opened is noticed after the meter was selected. -/
def rawSendMain {σ : Type} (raw : Buf 4096) (junk : Frame) (files : Arg → Option (List Byte)) (stdin : List Byte) (uninit : Buf 256) (os : Os)
    (world : Target → Int → Ops σ) (p : Proc) (s : σ) (args : List Arg) : C (Ran σ) :=
  match tcpOptionalArgs args with
  | none => usage 0 p s
  | some c => onTcp uninit os world [] c.target c.port p s fun o _ s =>
      match c.source files stdin with
      | some text => rawSendTool raw junk o s (c.operand 0) text
      | none => do
          let (_, s) ← reach o s (c.operand 0)
          .ok ⟨1, [], s⟩

/-- `free(addr)` at the end of a tool that copied its address argument -/
def dropCopy {σ : Type} (a : Nat) (r : Ran σ) : C (Ran σ) :=
  match r.held with
  | none => .ok r
  | some p => do
    let p ← p.free a
    .ok { r with held := some p }

/-- mbus-serial-scan-secondary.c:150-158: a frame object is allocated, not used and not freed. -/
def spareFrame {σ : Type} (os : Os) (p : Proc) (s : σ) (k : Proc → C (Ran σ)) : C (Ran σ) :=
  match p.alloc os.frame with
  | (none, _) => .ok ⟨1, [], s, none⟩
  | (some _, p) => k p

/-- `mbus-serial-scan-secondary`: mbus-serial-scan-secondary.c:52-183.  Simplification: the frame object is allocated before the
connection is set up. -/
def serialScanSecondaryMain {σ : Type} (uninit : Buf 256) (os : Os) (world : Target → Int → Ops σ) (p : Proc) (s : σ) (args : List Arg) : C (Ran σ) :=
  match serialScanSecondaryArgs args with
  | none => usage 0 p s
  | some c =>
    match p.alloc os.dup with
    | (none, _) => .ok ⟨1, [], s, none⟩
    | (some a, p) =>
      if isSecondaryAddress (c.operand 0) = false then .ok ⟨1, [], s, none⟩
      else do
        let r ← spareFrame os p s fun p =>
          onSerial uninit os world [] c.target c.baud p s fun o st s => scanSecondaryToolD c.debug o st s (c.operand 0)
        dropCopy a r

/-- `mbus-tcp-scan-secondary`: mbus-tcp-scan-secondary.c:21-114 (the port is checked before the mask; either ends the tool with status 1) -/
def tcpScanSecondaryMain {σ : Type} (uninit : Buf 256) (os : Os) (world : Target → Int → Ops σ) (p : Proc) (s : σ) (args : List Arg) : C (Ran σ) :=
  match tcpScanSecondaryArgs args with
  | none => usage 0 p s
  | some c =>
    match p.alloc os.dup with
    | (none, _) => .ok ⟨1, [], s, none⟩
    | (some a, p) =>
      if isSecondaryAddress (c.operand 0) = false then .ok ⟨1, [], s, none⟩
      else do
        let r ← onTcp uninit os world [] c.target c.port p s fun o st s => scanSecondaryTool o st s (c.operand 0)
        dropCopy a r

/-- `mbus-serial-select-secondary`: mbus-serial-select-secondary.c:20-127; `argv[2]` is printed as the address searched for. -/
def serialSelectMain {σ : Type} (junk : Frame) (wild : Bool) (uninit : Buf 256) (os : Os) (world : Target → Int → Ops σ) (p : Proc) (s : σ)
    (args : List Arg) : C (Ran σ) :=
  match serialSelectArgs args with
  | none => usage 0 p s
  | some c =>
    match p.alloc os.dup with
    | (none, _) => .ok ⟨1, [], s, none⟩
    | (some a, p) =>
      if isSecondaryAddress (c.operand 0) = false then .ok ⟨1, [], s, none⟩
      else do
        let r ← onSerial uninit os world (args.getD 1 []) c.target c.baud p s fun o _ s => selectTool junk wild o s (c.operand 0)
        dropCopy a r

/-- `mbus-tcp-select-secondary`: mbus-tcp-select-secondary.c:20-118; `argv[3]` is printed as the address searched for. -/
def tcpSelectMain {σ : Type} (junk : Frame) (wild : Bool) (uninit : Buf 256) (os : Os) (world : Target → Int → Ops σ) (p : Proc) (s : σ)
    (args : List Arg) : C (Ran σ) :=
  match tcpSelectArgs args with
  | none => usage 0 p s
  | some c =>
    match p.alloc os.dup with
    | (none, _) => .ok ⟨1, [], s, none⟩
    | (some a, p) =>
      if isSecondaryAddress (c.operand 0) = false then .ok ⟨1, [], s, none⟩
      else do
        let r ← onTcp uninit os world (args.getD 2 []) c.target c.port p s fun o _ s => selectTool junk wild o s (c.operand 0)
        dropCopy a r

end Mbus
