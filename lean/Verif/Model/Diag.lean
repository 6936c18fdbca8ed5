import Verif.Model.Session
import Verif.Model.Messages
import Verif.Model.Bus
import Verif.Model.Trace
/-
The diagnostics of the session functions: the functions of Model/Session again, with the lines they write to stderr (`MBUS_ERROR`,
mbus-protocol-aux.c:24) and the texts that `mbus_frame_select_secondary_pack`, `mbus_frame_get_secondary_address` and
`mbus_frame_data_parse` store in `error_str`, which two of the lines quote.  Result: what the function of Model/Session yields, and the
lines of the call in the order of writing.  Not modelled: what the transports themselves write to stderr (mbus-serial.c), the lines for
NULL arguments and failed allocations.
-/
namespace Mbus

/-- one `MBUS_ERROR`: `"%s: text\n"` with the name of the function (`__PRETTY_FUNCTION__`, the bare name in C code compiled by GCC); `fn`
is empty where the format has no `%s: ` in front. -/
structure Note where
  fn : List Byte
  text : List Byte
  deriving DecidableEq, Repr

/-- The operations of a handle together with `error_str`: `quote` is what `mbus_error_str()` returns (mbus-protocol.c:81-85), `tell`
stores a text (`snprintf(error_str, ...)`). -/
structure Desk (σ : Type) extends Ops σ where
  quote : σ → List Byte
  tell : σ → List Byte → σ

/-- storing the text of a call, if it stores one -/
def Desk.hear {σ : Type} (d : Desk σ) (s : σ) : Said → σ
  | none => s
  | some t => d.tell s t

/-- the desk with a log of the calls -/
def Desk.logged {σ : Type} (d : Desk σ) : Desk (σ × List Act) :=
  { d.toOps.logged with quote := fun s => d.quote s.1, tell := fun s t => (d.tell s.1 t, s.2) }

/-- `%d`: "invalid address %d" -/
def badAddress (a : Int) : List Byte := cs! "invalid address " ++ fmtInt a

section
variable {σ : Type} (d : Desk σ)

/-- mbus-protocol-aux.c:1924-1935, the end of the commands: send, `fn: failed to send mbus frame.` -/
def finishD (fn : List Byte) (s : σ) (f : Frame) : C (Int × σ × List Note) := do
  let (r, _, s) ← d.send s f
  if r = -1 then .ok (-1, s, [⟨fn, cs! "failed to send mbus frame."⟩]) else .ok (0, s, [])

/-- mbus-protocol-aux.c:1905-1936 `mbus_send_request_frame` -/
def sendRequestD (s : σ) (address : Int) : C (Int × σ × List Note) :=
  if isPrimaryAddress address = false then .ok (-1, s, [⟨cs! "mbus_send_request_frame", badAddress address⟩])
  else finishD d (cs! "mbus_send_request_frame") s
    { frameNew TYPE_SHORT with control := MASK_REQ_UD2 ||| MASK_DIR_M2S, address := UInt8.ofNat address.toNat }

/-- mbus-protocol-aux.c:2185-2222 `mbus_send_ping_frame` -/
def sendPingD (s : σ) (address : Int) (purgeResponse : Bool) : C (Int × σ × List Note) :=
  if isPrimaryAddress address = false then .ok (1, s, [⟨cs! "mbus_send_ping_frame", badAddress address⟩])
  else do
    let f := { frameNew TYPE_SHORT with control := MASK_SND_NKE ||| MASK_DIR_M2S, address := UInt8.ofNat address.toNat }
    let (r, _, s) ← d.send s f
    if r = -1 then .ok (-1, s, [⟨cs! "mbus_send_ping_frame", cs! "failed to send mbus frame."⟩])
    else if purgeResponse then do
      let (_, s) ← d.purge s
      .ok (0, s, [])
    else .ok (0, s, [])

/-- mbus-protocol-aux.c:1781-1845 `mbus_send_switch_baudrate_frame` -/
def sendBaudD (s : σ) (address baud : Int) : C (Int × σ × List Note) :=
  if isPrimaryAddress address = false then .ok (-1, s, [⟨cs! "mbus_send_switch_baudrate_frame", badAddress address⟩])
  else
    match baudCode baud with
    | none => .ok (-1, s, [⟨cs! "mbus_send_switch_baudrate_frame", cs! "invalid baudrate " ++ fmtInt baud⟩])
    | some ci => finishD d (cs! "mbus_send_switch_baudrate_frame") s
        { frameNew TYPE_CONTROL with control := MASK_SND_UD ||| MASK_DIR_M2S, address := UInt8.ofNat address.toNat, ci := ci }

/-- mbus-protocol-aux.c:1851-1899 `mbus_send_application_reset_frame` -/
def sendAppResetD (s : σ) (address subcode : Int) : C (Int × σ × List Note) :=
  if isPrimaryAddress address = false then .ok (-1, s, [⟨cs! "mbus_send_application_reset_frame", badAddress address⟩])
  else if subcode > 0xFF then .ok (-1, s, [⟨cs! "mbus_send_application_reset_frame", cs! "invalid subcode " ++ fmtInt subcode⟩])
  else do
    let f := { frameNew TYPE_LONG with control := MASK_SND_UD ||| MASK_DIR_M2S, address := UInt8.ofNat address.toNat, ci := 0x50 }
    let f ← if subcode ≥ 0 then do
        let x ← f.data.wr 0 (UInt8.ofNat subcode.toNat)
        .ok { f with dataSize := 1, data := x }
      else .ok { f with dataSize := 0 }
    finishD d (cs! "mbus_send_application_reset_frame") s f

/-- mbus-protocol-aux.c:1941-1987 `mbus_send_user_data_frame` -/
def sendUserDataD (s : σ) (address : Int) (data : List Byte) (size : Nat) : C (Int × σ × List Note) :=
  if isPrimaryAddress address = false then .ok (-1, s, [⟨cs! "mbus_send_user_data_frame", badAddress address⟩])
  else if size > 252 ∨ size = 0 then
    .ok (-1, s, [⟨cs! "mbus_send_user_data_frame", cs! "illegal data_size " ++ decDigits size⟩])
  else do
    let f := { frameNew TYPE_LONG with control := MASK_SND_UD ||| MASK_DIR_M2S, address := UInt8.ofNat address.toNat, ci := 0x51,
                                       dataSize := size }
    let x ← copyInto f.data data size
    finishD d (cs! "mbus_send_user_data_frame") s { f with data := x }

/-- mbus-protocol-aux.c:1992-2014 `mbus_set_primary_address` -/
def setPrimaryAddressD (s : σ) (oldAddr newAddr : Int) : C (Int × σ × List Note) :=
  if isPrimaryAddress newAddr = false then .ok (-1, s, [⟨cs! "mbus_set_primary_address", badAddress newAddr⟩])
  else if newAddr = 0xFD ∨ newAddr = 0xFE ∨ newAddr = 0xFF then
    .ok (-1, s, [⟨cs! "mbus_set_primary_address", badAddress newAddr⟩])
  else sendUserDataD d s oldAddr [0x01, 0x7A, ucharOfInt newAddr] 3

/-- mbus-protocol-aux.c:1752-1775 `mbus_send_select_frame` -/
def sendSelectD (s : σ) (mask : List Byte) : C (Int × σ × List Note) := do
  let (r, f, m) ← selectPackE (frameNew TYPE_LONG) mask
  if r = -1 then .ok (-1, d.hear s m, [⟨cs! "mbus_send_select_frame", cs! "Failed to pack selection mbus frame."⟩])
  else do
    let (r, _, s) ← d.send (d.hear s m) f
    if r = -1 then .ok (-1, s, [⟨cs! "mbus_send_select_frame", cs! "Failed to send mbus frame."⟩]) else .ok (0, s, [])

/-- mbus-protocol-aux.c:2227-2277 `mbus_select_secondary_address` -/
def selectSecondaryD (s : σ) (mask : List Byte) : C (Int × σ × List Note) :=
  if mask.length ≠ 16 then .ok (PROBE_ERROR, s, [⟨cs! "mbus_select_secondary_address", cs! "Invalid address masks."⟩])
  else do
    let (r, s, ls) ← sendSelectD d s mask
    if r = -1 then
      .ok (PROBE_ERROR, s, ls ++ [⟨cs! "mbus_select_secondary_address", cs! "Failed to send selection frame: " ++ d.quote s ++ cs! "."⟩])
    else do
      let (ret, reply, s) ← d.recv s Frame.zero
      if ret = RECV_TIMEOUT then .ok (PROBE_NOTHING, s, ls)
      else if ret = RECV_INVALID then do
        let (_, s) ← d.purge s
        .ok (PROBE_COLLISION, s, ls)
      else if reply.type = TYPE_ACK then do
        let (p, s) ← d.purge s
        if p ≠ 0 then .ok (PROBE_COLLISION, s, ls) else .ok (PROBE_SINGLE, s, ls)
      else .ok (PROBE_NOTHING, s, ls ++ [⟨cs! "mbus_select_secondary_address", cs! "Unexpected reply for address [" ++ mask ++ cs! "]."⟩])

/-- mbus-protocol-aux.c:2299-2358, in `mbus_probe_secondary_address` -/
def probeSelectedD (s : σ) (mask : List Byte) : C (Int × Option (List Byte) × σ × List Note) := do
  let (r, s, ls) ← sendRequestD d s 0xFD
  if r = -1 then
    .ok (PROBE_ERROR, none, s, ls ++ [⟨cs! "mbus_probe_secondary_address",
      cs! "Failed to send request to selected secondary device [mask " ++ mask ++ cs! "]: " ++ d.quote s ++ cs! "."⟩])
  else do
    let (ret, reply, s) ← d.recv s Frame.zero
    if ret = RECV_TIMEOUT then .ok (PROBE_NOTHING, none, s, ls)
    else if ret = RECV_INVALID then do
      let (_, s) ← d.purge s
      .ok (PROBE_COLLISION, none, s, ls)
    else do
      let (p, s) ← d.purge s
      if p ≠ 0 then .ok (PROBE_COLLISION, none, s, ls)
      else if reply.type = TYPE_LONG then do
        let (a, m) ← getSecondaryAddressE reply
        let s := d.hear s m
        match a with
        | none =>
          .ok (PROBE_NOTHING, none, s, ls ++ [⟨[], cs! "Failed to generate secondary address from M-Bus reply frame: " ++ d.quote s⟩])
        | some addr => .ok (PROBE_SINGLE, some (addr.take 16), d.found s (addr.take 16) reply, ls)
      else .ok (PROBE_NOTHING, none, s, ls ++ [⟨cs! "mbus_probe_secondary_address",
        cs! "Unexpected reply for address [mask " ++ mask ++ cs! "]. Expected long frame."⟩])

/-- mbus-protocol-aux.c:2294-2365, the retry loop of `mbus_probe_secondary_address` -/
def probeLoopD (mask : List Byte) (ret : Int) : (tries : Nat) → σ → C (Int × Option (List Byte) × σ × List Note)
  | 0, s => .ok (ret, none, s, [])
  | tries + 1, s => do
    let (r, s, ls) ← selectSecondaryD d s mask
    if r = PROBE_SINGLE then do
      let (r, a, s, ms) ← probeSelectedD d s mask
      .ok (r, a, s, ls ++ ms)
    else if r = PROBE_ERROR ∨ r = PROBE_COLLISION then .ok (r, none, s, ls)
    else do
      let (r, a, s, ms) ← probeLoopD mask r tries s
      .ok (r, a, s, ls ++ ms)

/-- mbus-protocol-aux.c:2283-2368 `mbus_probe_secondary_address` -/
def probeSecondaryD (st : Settings) (s : σ) (mask : List Byte) : C (Int × Option (List Byte) × σ × List Note) :=
  if mask.length ≠ 16 then .ok (PROBE_ERROR, none, s, [⟨cs! "mbus_probe_secondary_address", cs! "Invalid address masks."⟩])
  else probeLoopD d mask 0 (st.maxSearchRetry + 1).toNat s

/-- mbus-protocol-aux.c:2498-2530, the loop of `mbus_scan_2nd_address_range` -/
def scanLoopD (st : Settings) (pos : Nat) (sub : σ → List Byte → C (Int × σ × List Note)) (mask : List Byte) :
    (ds : List Byte) → σ → C (Int × σ × List Note)
  | [], s => .ok (0, s, [])
  | x :: ds, s => do
    let mask := mask.set pos x
    let s := d.progress s mask
    let (r, _, s, ls) ← probeSecondaryD d st s mask
    if r = PROBE_SINGLE then do
      let (c, s, ns) ← scanLoopD st pos sub mask ds s
      .ok (c, s, ls ++ ns)
    else if r = PROBE_COLLISION then do
      let (_, s, ms) ← sub s mask
      let (c, s, ns) ← scanLoopD st pos sub mask ds s
      .ok (c, s, ls ++ ms ++ ns)
    else if r = PROBE_NOTHING then do
      let (c, s, ns) ← scanLoopD st pos sub mask ds s
      .ok (c, s, ls ++ ns)
    else .ok (-1, s, ls ++ [⟨cs! "mbus_scan_2nd_address_range", cs! "Failed to probe secondary address [" ++ mask ++ cs! "]."⟩])

/-- mbus-protocol-aux.c:2446-2534 `mbus_scan_2nd_address_range` for a 16-character mask and `pos = 16 - n` -/
def scanAtD (st : Settings) : (n : Nat) → σ → List Byte → C (Int × σ × List Note)
  | 0, s, _ => .ok (0, s, [])
  | n + 1, s, mask => do
    let pos := 15 - n
    let c ← rd mask pos
    if c = 102 ∨ c = 70 then scanLoopD d st pos (scanAtD st n) mask decimalDigits s
    else if pos < 15 then do
      let (_, s, ls) ← scanAtD st n s mask
      .ok (0, s, ls)
    else scanLoopD d st pos (scanAtD st n) mask [c] s

/-- mbus-protocol-aux.c:2446-2534 `mbus_scan_2nd_address_range` -/
def scanRangeD (st : Settings) (s : σ) (pos : Int) (mask : List Byte) : C (Int × σ × List Note) :=
  if mask.length ≠ 16 then
    .ok (-1, s, [⟨cs! "mbus_scan_2nd_address_range", cs! "Illegal address mask [" ++ mask ++ cs! "]. Not 16 characters long."⟩])
  else if pos < 0 ∨ pos ≥ 16 then .ok (0, s, [])
  else scanAtD d st (16 - pos.toNat) s mask

/-- mbus-protocol-aux.c:2379-2386 and 2425-2431: the request of `mbus_read_slave` -/
def askD (s : σ) (a : Int) : C (Int × σ × List Note) := do
  let (r, s, ls) ← sendRequestD d s a
  if r = -1 then .ok (-1, s, ls ++ [⟨cs! "mbus_read_slave", cs! "Failed to send M-Bus request frame."⟩]) else .ok (r, s, ls)

/-- mbus-protocol-aux.c:2388-2431: selection and request of `mbus_read_slave` -/
def approachD (s : σ) : Address → C (Int × σ × List Note)
  | .primary a => askD d s a
  | .secondary t => do
    let (p, s, ls) ← selectSecondaryD d s t
    if p = PROBE_COLLISION then
      .ok (-1, s, ls ++ [⟨cs! "mbus_read_slave", cs! "The address mask [" ++ t ++ cs! "] matches more than one device."⟩])
    else if p = PROBE_NOTHING then
      .ok (-1, s, ls ++ [⟨cs! "mbus_read_slave", cs! "The selected secondary address [" ++ t ++ cs! "] does not match any device."⟩])
    else if p = PROBE_ERROR then
      .ok (-1, s, ls ++ [⟨cs! "mbus_read_slave", cs! "Failed to probe secondary address [" ++ t ++ cs! "]."⟩])
    else do
      let (r, s, ms) ← askD d s 0xFD
      .ok (r, s, ls ++ ms)

/-- mbus-protocol-aux.c:2371-2441 `mbus_read_slave` -/
def readSlaveD (s : σ) (addr : Address) (reply : Frame) : C (Int × Frame × σ × List Note) := do
  let (r, s, ls) ← approachD d s addr
  if r = -1 then .ok (-1, reply, s, ls)
  else do
    let (c, reply, s) ← d.recv s reply
    if c ≠ 0 then .ok (-1, reply, s, ls ++ [⟨cs! "mbus_read_slave", cs! "Failed to receive M-Bus response frame."⟩])
    else .ok (0, reply, s, ls)

/-- the name in front of the lines of `mbus_sendrecv_request` -/
def srLine (text : List Byte) : Note := ⟨cs! "mbus_sendrecv_request", text⟩

set_option linter.unusedVariables false in
/-- mbus-protocol-aux.c:2064-2174, the loop of `mbus_sendrecv_request`; `ls`: the lines so far. -/
def sendrecvLoopD (maxRetry maxFrames : Int) (s : σ) (req : Frame) (done : List Frame) (cur : Frame)
    (x : FrameData) (p : RecPtr) (retry count : Int) (ls : List Note) : C (SrOut σ × List Note) :=
  if hr : retry > maxRetry then .ok (⟨1, done ++ [cur], p, s⟩, ls)
  else
    match d.send s req with
    | .error e => .error e
    | .ok (r, req, s) =>
    if r = -1 then .ok (⟨-1, done ++ [cur], p, s⟩, ls ++ [srLine (cs! "failed to send mbus frame.")])
    else
      match d.recv s cur with
      | .error e => .error e
      | .ok (result, cur, s) =>
      if result = RECV_OK then
        match d.purge s with
        | .error e => .error e
        | .ok (_, s) =>
          let count := count + 1
          match frameDataParseE cur x with
          | .error e => .error e
          | .ok (pr, x, m) =>
            let s := d.hear s m
            if pr = -1 then .ok (⟨1, done ++ [cur], p.parse cur x, s⟩, ls ++ [srLine (cs! "M-bus data parse error.")])
            else
              let p := p.parse cur x
              if hm : x.type = DATA_VARIABLE ∧ x.var.more ≠ 0 ∧ maxFrames > 0 ∧ count < maxFrames then
                match p.free with
                | .error e => .error e
                | .ok p =>
                  sendrecvLoopD maxRetry maxFrames s { req with control := req.control ^^^ MASK_FCB } (done ++ [cur])
                    (frameNew TYPE_ANY) x p 0 count ls
              else
                match p.free with
                | .error e => .error e
                | .ok p => .ok (⟨0, done ++ [cur], p, s⟩, ls)
      else if result = RECV_TIMEOUT then
        sendrecvLoopD maxRetry maxFrames s req done cur x p (retry + 1) count (ls ++ [srLine (cs! "No M-Bus response frame received.")])
      else if result = RECV_INVALID then
        match d.purge s with
        | .error e => .error e
        | .ok (_, s) =>
          sendrecvLoopD maxRetry maxFrames s req done cur x p (retry + 1) count
            (ls ++ [srLine (cs! "Received invalid M-Bus response frame.")])
      else .ok (⟨1, done ++ [cur], p, s⟩, ls ++ [srLine (cs! "Failed to receive M-Bus response frame.")])
termination_by ((maxFrames - count).toNat, (maxRetry + 1 - retry).toNat)
decreasing_by
  · apply Prod.Lex.left; omega
  · apply Prod.Lex.right; omega
  · apply Prod.Lex.right; omega

/-- mbus-protocol-aux.c:2020-2179 `mbus_sendrecv_request` -/
def sendrecvRequestD (st : Settings) (s : σ) (address : Int) (reply : Frame) (maxFrames : Int) : C (SrOut σ × List Note) :=
  if isPrimaryAddress address = false then .ok (⟨1, [reply], .null, s⟩, [srLine (badAddress address)])
  else
    sendrecvLoopD d st.maxDataRetry maxFrames s
      { frameNew TYPE_SHORT with control := MASK_REQ_UD2 ||| MASK_DIR_M2S ||| MASK_FCV ||| MASK_FCB, address := UInt8.ofNat address.toNat }
      [] reply FrameData.new .null 0 0 []

end

end Mbus
