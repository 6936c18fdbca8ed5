import Verif.Model.Trace
import Verif.Model.Xml
/-
The command line tools in bin/: what they do on a connected handle, from the parsed command line arguments to exit status and
standard output.  Option parsing, opening and closing the connection are in Model/Main.lean.  The output of option -d is in
Model/Debug.lean.  Not modelled: messages on standard error.
-/
namespace Mbus

/-- a line a tool prints on standard output -/
inductive Line where
  /-- "Found a M-Bus device at address %d" -/
  | found (address : Int)
  /-- "Collision at address %d" -/
  | collision (address : Int)
  /-- "Set primary address of device to %d" -/
  | addressSet (address : Int)
  /-- "Switched baud rate of device to %ld" -/
  | baudSwitched (baud : Int)
  /-- "Successful reset device", "(Subcode: %d)" iff the subcode is not negative -/
  | reset (subcode : Int)
  /-- "Recieved a reply from secondarily addressed device: Searched for [..] and found [%s]." (the address found) -/
  | reply (address : List Byte)
  /-- "Found a device on secondary address %s [using address mask %s]" (mbus-protocol-aux.c:2505-2508) -/
  | device (address mask : List Byte)
  /-- an XML document (`%s` of the returned buffer) -/
  | xml (text : List Byte)
  /-- the dump of a frame by `mbus_frame_print` -/
  | dump (f : Frame)
  /-- text printed because of option -d -/
  | note (text : List Byte)
  /-- the dump of a list of frames by `mbus_frame_print` because of option -d -/
  | chain (fs : List Frame)
  deriving DecidableEq

/-- what is left of a tool: exit status, standard output, the link -/
structure Exit (σ : Type) where
  code : Int
  out : List Line
  state : σ

/-- C library `atoi` (glibc: `(int) strtol(s, NULL, 10)`): white space, sign, decimal digits; `strtol` saturates, the conversion to
`int` wraps. -/
def atoi (s : List Byte) : Int :=
  let s := s.dropWhile isSpace
  let (neg, s) := match s with
    | c :: t => if c = 45 then (true, t) else if c = 43 then (false, t) else (false, c :: t)
    | [] => (false, [])
  let n : Nat := (s.takeWhile isDigit).foldl (fun a c => 10 * a + (c.toNat - 48)) 0
  let z : Int := if neg then max (-(2 ^ 63)) (-(n : Int)) else min (2 ^ 63 - 1) n
  (z + 2 ^ 31) % 2 ^ 32 - 2 ^ 31

/-! ### primary scan -/

/-- mbus-serial-scan.c:24-44, mbus-tcp-scan.c:24-44: the loop of `ping_address`; `n` tries are left, `ret` is the last result. -/
def pingLoop {σ : Type} (o : Ops σ) (address : Int) : (n : Nat) → σ → Frame → (ret : Int) → C (Int × Frame × σ)
  | 0, s, reply, ret => .ok (ret, reply, s)
  | n + 1, s, reply, _ => do
    let (r, s) ← sendPing o s address false
    if r = -1 then .ok (RECV_ERROR, reply, s)
    else do
      let (ret, reply, s) ← o.recv s reply
      if ret ≠ RECV_TIMEOUT then .ok (ret, reply, s) else pingLoop o address n s reply ret

/-- mbus-serial-scan.c:18-47, mbus-tcp-scan.c:18-47 `ping_address(handle, reply, address)` (debug output: Model/Debug.lean) -/
def pingAddress {σ : Type} (o : Ops σ) (st : Settings) (s : σ) (address : Int) : C (Int × Frame × σ) :=
  pingLoop o address (st.maxSearchRetry + 1).toNat s Frame.zero RECV_ERROR

/-- mbus-serial-scan.c:146-174, mbus-tcp-scan.c:126-154: the loop body of the scan for one address -/
def scanAddress {σ : Type} (o : Ops σ) (st : Settings) (s : σ) (address : Int) : C (List Line × σ) := do
  let (ret, reply, s) ← pingAddress o st s address
  if ret = RECV_TIMEOUT then .ok ([], s)
  else if ret = RECV_INVALID then do
    let (_, s) ← o.purge s
    .ok ([.collision address], s)
  else if reply.type = TYPE_ACK then do
    let (p, s) ← o.purge s
    if p ≠ 0 then .ok ([.collision address], s) else .ok ([.found address], s)
  else .ok ([], s)

/-- mbus-serial-scan.c:144-175, mbus-tcp-scan.c:124-155: the loop over the addresses, from address `a` on, `n` addresses left -/
def scanFrom {σ : Type} (o : Ops σ) (st : Settings) : (n : Nat) → (a : Nat) → σ → C (List Line × σ)
  | 0, _, s => .ok ([], s)
  | n + 1, a, s => do
    let (l, s) ← scanAddress o st s a
    let (ls, s) ← scanFrom o st n (a + 1) s
    .ok (l ++ ls, s)

/-- mbus-serial-scan.c:129-179, mbus-tcp-scan.c:116-159: the tools `mbus-serial-scan` and `mbus-tcp-scan` on a connected handle;
`retries` is the argument of option -r (0 without it). -/
def scanTool {σ : Type} (o : Ops σ) (st : Settings) (s : σ) (retries : Int) : C (Exit σ) :=
  match setOption st 1 retries with
  | (r, st) =>
    if r = -1 then .ok ⟨1, [], s⟩
    else do
      let (ls, s) ← scanFrom o st (MAX_PRIMARY_SLAVES + 1) 0 s
      .ok ⟨0, ls, s⟩

/-! ### the address argument -/

/-- The address part common to mbus-serial-request-data.c:130-167, mbus-tcp-request-data.c:80-115 and the multi-reply tools
(serial 140-177, tcp 134-171), mbus-tcp-application-reset.c:90-128, mbus-tcp-raw-send.c:100-130, mbus-serial-set-address.c:161-196:
a secondary address is selected and then addressed by 0xFD, everything else is a primary address; `none`: exit with status 1. -/
def reach {σ : Type} (o : Ops σ) (s : σ) (addr : List Byte) : C (Option Int × σ) :=
  if isSecondaryAddress addr then do
    let (r, s) ← selectSecondary o s addr
    if r = PROBE_COLLISION ∨ r = PROBE_NOTHING ∨ r = PROBE_ERROR then .ok (none, s) else .ok (some 0xFD, s)
  else .ok (some (atoi addr), s)

/-- mbus-serial-request-data.c:21-45 and the same function in the multi-reply tools and mbus-serial-set-address.c: `init_slaves`
(second address 0xFD); mbus-serial-scan-secondary.c:21-45 and mbus-tcp-scan-secondary.c:83-102 (second address 0xFF) -/
def initSlaves {σ : Type} (o : Ops σ) (s : σ) (second : Int) : C (Bool × σ) := do
  let (r, s) ← sendPing o s 0xFD true
  if r = -1 then .ok (false, s)
  else do
    let (r, s) ← sendPing o s second true
    if r = -1 then .ok (false, s) else .ok (true, s)

/-! ### readout -/

/-- mbus-serial-request-data.c:169-227, mbus-tcp-request-data.c:104-161: request, response, XML.  `stamp` is the text of the time
stamp of the response. -/
def requestFrom {σ : Type} (junk0 : Nat → Byte) (junk : Nat → Nat → Byte) (stamp : Option (List Byte)) (o : Ops σ) (s : σ) (address : Int) :
    C (Exit σ) := do
  let (r, s) ← sendRequest o s address
  if r = -1 then .ok ⟨1, [], s⟩
  else do
    let (rc, reply, s) ← o.recv s Frame.zero
    if rc ≠ RECV_OK then .ok ⟨1, [], s⟩
    else do
      let (pr, x) ← frameDataParse reply FrameData.new
      if pr = -1 then .ok ⟨1, [], s⟩
      else do
        let m ← frameDataXml junk0 junk x (x.var.records.map fun _ => stamp)
        match m with
        | none => .ok ⟨1, [], s⟩
        | some m => do
          let t ← cstr m
          .ok ⟨0, [.xml t], s⟩

/-- mbus-serial-request-data.c:123-128 (`init`): only the serial tool resets the selected meters first. -/
def maybeInit {σ : Type} (init : Bool) (o : Ops σ) (s : σ) : C (Bool × σ) :=
  if init then initSlaves o s 0xFD else .ok (true, s)

/-- The tools `mbus-tcp-request-data` (mbus-tcp-request-data.c:80-163, `init = false`) and `mbus-serial-request-data`
(mbus-serial-request-data.c:123-228, `init = true`) on a connected handle. -/
def requestTool {σ : Type} (init : Bool) (junk0 : Nat → Byte) (junk : Nat → Nat → Byte) (stamp : Option (List Byte)) (o : Ops σ) (s : σ)
    (addr : List Byte) : C (Exit σ) := do
  let (ok, s) ← maybeInit init o s
  if ok = false then .ok ⟨1, [], s⟩
  else do
    let (a, s) ← reach o s addr
    match a with
    | none => .ok ⟨1, [], s⟩
    | some a => requestFrom junk0 junk stamp o s a

/-- The tools `mbus-serial-request-data-multi-reply` (mbus-serial-request-data-multi-reply.c:133-217) and
`mbus-tcp-request-data-multi-reply` (mbus-tcp-request-data-multi-reply.c:127-212) on a connected handle; `maxFrames` is the
argument of option -f (16 without it), `stamps` the texts of the time stamps of the responses. -/
def multiTool {σ : Type} (junk0 : Nat → Byte) (junk : Nat → Nat → Byte) (stamps : Nat → Option (List Byte)) (o : Ops σ) (st : Settings) (s : σ)
    (maxFrames : Int) (addr : List Byte) : C (Exit σ) := do
  let (ok, s) ← initSlaves o s 0xFD
  if ok = false then .ok ⟨1, [], s⟩
  else do
    let (a, s) ← reach o s addr
    match a with
    | none => .ok ⟨1, [], s⟩
    | some a => do
      let r ← sendrecvRequest o st s a Frame.zero maxFrames
      if r.code ≠ 0 then .ok ⟨1, [], r.state⟩
      else
        match r.chain.zipIdx.map (fun q => (q.1, stamps q.2)) with
        | [] => .ok ⟨1, [], r.state⟩
        | t :: ts => do
          let x ← frameXml junk0 junk t ts
          match x.text with
          | none => .ok ⟨1, [], r.state⟩
          | some m => do
            let txt ← cstr m
            .ok ⟨0, [.xml txt], r.state⟩

/-! ### commands -/

/-- `mbus_frame_print(&reply)` (mbus-protocol.c:4316-4342) on a local frame object: follows `reply.next`, which `mbus_recv_frame` does
not set: NULL if the object was zeroed, otherwise (`wild`) an uninitialised pointer that is read through. -/
def printReply (wild : Bool) (f : Frame) : C (List Line) :=
  if wild then .error .useAfterFree else .ok [.dump f]

/-- mbus-serial-set-address.c:66-228: the tool `mbus-serial-set-address` (from line 94 on a connected handle).  `junk` is the
uninitialised frame object used for the first receive. -/
def setAddressTool {σ : Type} (junk : Frame) (o : Ops σ) (s : σ) (old new : List Byte) : C (Exit σ) :=
  let newAddr := atoi new
  if isPrimaryAddress newAddr = false then .ok ⟨-1, [], s⟩
  else if newAddr = 0xFD ∨ newAddr = 0xFE ∨ newAddr = 0xFF then .ok ⟨-1, [], s⟩
  else do
    let (ok, s) ← initSlaves o s 0xFD
    if ok = false then .ok ⟨1, [], s⟩
    else do
      let (r, s) ← sendPing o s newAddr false
      if r = -1 then .ok ⟨1, [], s⟩
      else do
        let (rc, _, s) ← o.recv s junk
        if rc ≠ RECV_TIMEOUT then .ok ⟨1, [], s⟩
        else do
          let (a, s) ← reach o s old
          match a with
          | none => .ok ⟨1, [], s⟩
          | some a => do
            let (r, s) ← setPrimaryAddress o s a newAddr
            if r = -1 then .ok ⟨1, [], s⟩
            else do
              let (rc, reply, s) ← o.recv s Frame.zero
              if rc = RECV_TIMEOUT then .ok ⟨1, [], s⟩
              else if reply.type ≠ TYPE_ACK then do
                let d ← printReply false reply
                .ok ⟨0, d, s⟩
              else .ok ⟨0, [.addressSet newAddr], s⟩

/-- mbus-serial-switch-baudrate.c:69-95: the tool `mbus-serial-switch-baudrate` on a connected handle.  The frame object `junk` (and
its link, `wild`) is not initialised. -/
def switchBaudTool {σ : Type} (junk : Frame) (wild : Bool) (o : Ops σ) (s : σ) (address baud : Int) : C (Exit σ) := do
  let (r, s) ← sendBaud o s address baud
  if r = -1 then .ok ⟨1, [], s⟩
  else do
    let (rc, reply, s) ← o.recv s junk
    if rc = RECV_TIMEOUT then .ok ⟨1, [], s⟩
    else if reply.type ≠ TYPE_ACK then do
      let d ← printReply wild reply
      .ok ⟨0, d, s⟩
    else .ok ⟨0, [.baudSwitched baud], s⟩

/-- mbus-tcp-application-reset.c:90-167: the tool `mbus-tcp-application-reset` on a connected handle.  The frame object `junk` (and its
link, `wild`) is not initialised. -/
def resetTool {σ : Type} (junk : Frame) (wild : Bool) (o : Ops σ) (s : σ) (addr : List Byte) (subcode : Int) : C (Exit σ) := do
  let (a, s) ← reach o s addr
  match a with
  | none => .ok ⟨1, [], s⟩
  | some a => do
    let (r, s) ← sendAppReset o s a subcode
    if r = -1 then .ok ⟨1, [], s⟩
    else do
      let (rc, reply, s) ← o.recv s junk
      if rc = RECV_TIMEOUT then .ok ⟨1, [], s⟩
      else if reply.type ≠ TYPE_ACK then do
        let d ← printReply wild reply
        .ok ⟨0, d, s⟩
      else .ok ⟨0, [.reset subcode], s⟩

/-! ### raw telegrams -/

/-- mbus-tcp-raw-send.c:146-153: the file is read into a zeroed array of 4096 characters and converted from hexadecimal into an
uninitialised array of the same size; result: that array and the number of bytes. -/
def rawRead (uninit : Buf 4096) (file : List Byte) : C (List Byte × Nat) :=
  hex2bin uninit.bytes 4096 (file.take 4096 ++ List.replicate (4096 - file.length) 0)

/-- mbus-tcp-raw-send.c:100-197: the tool `mbus-tcp-raw-send` on a connected handle; `file` is the content of the file (or of standard
input), `junk` the uninitialised frame object for the request.  The file itself can be opened. -/
def rawSendTool {σ : Type} (uninit : Buf 4096) (junk : Frame) (o : Ops σ) (s : σ) (addr file : List Byte) : C (Exit σ) := do
  let (a, s) ← reach o s addr
  match a with
  | none => .ok ⟨1, [], s⟩
  | some _ => do
    let (buff, n) ← rawRead uninit file
    let (r, request) ← mbusParse junk buff n
    if r < 0 then .ok ⟨1, [], s⟩
    else if r > 0 then .ok ⟨1, [], s⟩
    else do
      let (c, _, s) ← o.send s request
      if c = -1 then .ok ⟨1, [], s⟩
      else do
        let (rc, _, s) ← o.recv s Frame.zero
        if rc ≠ RECV_OK then .ok ⟨1, [], s⟩ else .ok ⟨0, [], s⟩

/-! ### secondary scan -/

/-- The output of `mbus_scan_2nd_address_range` when no callbacks are registered (mbus-protocol-aux.c:2505-2508): for each probe that
answers SINGLE a line with the address found and the mask of the probe.  State: the handle, the mask being probed, the lines. -/
def Ops.printing {σ : Type} (o : Ops σ) : Ops (σ × List Byte × List Line) where
  send s f := do
    let (r, f', s') ← o.send s.1 f
    .ok (r, f', s', s.2)
  recv s f := do
    let (c, f', s') ← o.recv s.1 f
    .ok (c, f', s', s.2)
  purge s := do
    let (r, s') ← o.purge s.1
    .ok (r, s', s.2)
  progress s m := (o.progress s.1 m, m, s.2.2)
  found s a f := (o.found s.1 a f, s.2.1, s.2.2 ++ [.device a s.2.1])

/-- mbus-serial-scan-secondary.c:113-183 and mbus-tcp-scan-secondary.c:62-113: the tools `mbus-serial-scan-secondary` and
`mbus-tcp-scan-secondary` (from the check of the mask on, with a connected handle). -/
def scanSecondaryTool {σ : Type} (o : Ops σ) (st : Settings) (s : σ) (mask : List Byte) : C (Exit σ) :=
  if isSecondaryAddress mask = false then .ok ⟨1, [], s⟩
  else do
    let (ok, s) ← initSlaves o s 0xFF
    if ok = false then .ok ⟨1, [], s⟩
    else do
      let (_, s, _, ls) ← scanRange o.printing st (s, [], []) 0 mask
      .ok ⟨0, ls, s⟩

/-! ### selection -/

/-- mbus-serial-select-secondary.c:53-127, mbus-tcp-select-secondary.c:51-118: the tools `mbus-serial-select-secondary` and
`mbus-tcp-select-secondary` (on a connected handle, after the check of the address).  The frame object `junk` (and its link, `wild`) is
not initialised.  Printing a NULL address with `%s` is undefined (glibc prints "(null)"). -/
def selectTool {σ : Type} (junk : Frame) (wild : Bool) (o : Ops σ) (s : σ) (addr : List Byte) : C (Exit σ) :=
  if isSecondaryAddress addr = false then .ok ⟨1, [], s⟩
  else do
    let (r, s) ← sendSelect o s addr
    if r = -1 then .ok ⟨1, [], s⟩
    else do
      let (ret, reply, s) ← o.recv s junk
      if ret = RECV_TIMEOUT then .ok ⟨1, [], s⟩
      else if ret = RECV_INVALID then .ok ⟨1, [], s⟩
      else if reply.type = TYPE_ACK then do
        let (r, s) ← sendRequest o s 0xFD
        if r = -1 then .ok ⟨1, [], s⟩
        else do
          let (ret, reply, s) ← o.recv s reply
          if ret ≠ RECV_OK then .ok ⟨1, [], s⟩
          else if reply.type ≠ TYPE_ACK then do
            let a ← getSecondaryAddress reply
            match a with
            | none => .error .null
            | some a => .ok ⟨0, [.reply a], s⟩
          else .ok ⟨0, [], s⟩
      else do
        let d ← printReply wild reply
        .ok ⟨0, d, s⟩

end Mbus
