import Verif.Model.Owned
import Verif.Model.Session
/-
Model of the memory used by the session functions of mbus/mbus-protocol-aux.c and by the record parser: request frames, parsed
records, address masks and the chain of reply frames.  What the functions transmit and compute is the model of Model/Session.lean,
Model/Record.lean and Model/Address.lean; here every `mbus_frame_new`, `mbus_data_record_new`, `mbus_frame_data_new` and `strdup` may
fail (heap `Mem` of Model/Owned.lean).  Simplification: the content of frames and records is kept outside the heap (blocks with empty
content), and a linked list is the list of its blocks (Model/Heap.lean and C61 justify this).
-/
namespace Mbus

/-- The pattern of all commands: `frame = mbus_frame_new(..)`; NULL: return -1; otherwise fill and send the frame (`act`), release it
on every path.  mbus-protocol-aux.c:1827-1844, 1870-1898, 1916-1935, 1962-1986, 2198-2221. -/
def withFrame {σ : Type} (s : σ) (m : Mem) (act : C (Int × σ)) : C ((Int × σ) × Mem) :=
  match m.alloc [] with
  | (none, m) => .ok ((-1, s), m)
  | (some p, m) => do
      let (r, s) ← act
      let m ← m.free p
      .ok ((r, s), m)

/-- mbus-protocol-aux.c:1905-1936 `mbus_send_request_frame` -/
def sendRequestOwned {σ : Type} (o : Ops σ) (s : σ) (m : Mem) (address : Int) : C ((Int × σ) × Mem) :=
  if isPrimaryAddress address = false then .ok ((-1, s), m) else withFrame s m (sendRequest o s address)

/-- mbus-protocol-aux.c:2185-2222 `mbus_send_ping_frame` -/
def sendPingOwned {σ : Type} (o : Ops σ) (s : σ) (m : Mem) (address : Int) (purgeResponse : Bool) : C ((Int × σ) × Mem) :=
  if isPrimaryAddress address = false then .ok ((1, s), m) else withFrame s m (sendPing o s address purgeResponse)

/-- mbus-protocol-aux.c:1781-1845 `mbus_send_switch_baudrate_frame` -/
def sendBaudOwned {σ : Type} (o : Ops σ) (s : σ) (m : Mem) (address baud : Int) : C ((Int × σ) × Mem) :=
  if isPrimaryAddress address = false then .ok ((-1, s), m)
  else
    match baudCode baud with
    | none => .ok ((-1, s), m)
    | some _ => withFrame s m (sendBaud o s address baud)

/-- mbus-protocol-aux.c:1851-1899 `mbus_send_application_reset_frame` -/
def sendAppResetOwned {σ : Type} (o : Ops σ) (s : σ) (m : Mem) (address subcode : Int) : C ((Int × σ) × Mem) :=
  if isPrimaryAddress address = false then .ok ((-1, s), m)
  else if subcode > 0xFF then .ok ((-1, s), m)
  else withFrame s m (sendAppReset o s address subcode)

/-- mbus-protocol-aux.c:1941-1987 `mbus_send_user_data_frame` -/
def sendUserDataOwned {σ : Type} (o : Ops σ) (s : σ) (m : Mem) (address : Int) (data : List Byte) (size : Nat) : C ((Int × σ) × Mem) :=
  if isPrimaryAddress address = false then .ok ((-1, s), m)
  else if size > 252 ∨ size = 0 then .ok ((-1, s), m)
  else withFrame s m (sendUserData o s address data size)

/-- mbus-protocol-aux.c:1992-2014 `mbus_set_primary_address` -/
def setPrimaryAddressOwned {σ : Type} (o : Ops σ) (s : σ) (m : Mem) (oldAddr newAddr : Int) : C ((Int × σ) × Mem) :=
  if isPrimaryAddress newAddr = false then .ok ((-1, s), m)
  else if newAddr = 0xFD ∨ newAddr = 0xFE ∨ newAddr = 0xFF then .ok ((-1, s), m)
  else sendUserDataOwned o s m oldAddr [0x01, 0x7A, ucharOfInt newAddr] 3

/-- mbus-protocol-aux.c:1752-1775 `mbus_send_select_frame`: with NULL the packing fails (mbus-protocol.c:5235-5239) and
`mbus_frame_free(NULL)` does nothing. -/
def sendSelectOwned {σ : Type} (o : Ops σ) (s : σ) (m : Mem) (mask : List Byte) : C ((Int × σ) × Mem) :=
  withFrame s m (sendSelect o s mask)

/-- mbus-protocol.c:5140-5152 `mbus_data_record_free` on the list with the blocks `as` (and `mbus_frame_free` on a chain). -/
def Mem.freeList (m : Mem) : List Nat → C Mem
  | [] => .ok m
  | a :: as => do
      let m ← m.free a
      m.freeList as

/-- mbus-protocol.c:3825-4002: the record loop; `recs` are the blocks of `data->record`. `mbus_data_record_new` returning NULL: return -2. -/
def varLoopOwned (d : Buf 252) (size : Nat) : (fuel : Nat) → (i : Nat) → VarData → List Nat → Mem → C (Int × VarData × List Nat × Mem)
  | fuel, i, v, recs, m =>
    if i < size then
      match fuel with
      | 0 => .error .outOfFuel
      | fuel + 1 =>
        match d.rd i with
        | .error e => .error e
        | .ok b =>
          if b = 0x2F then varLoopOwned d size fuel (i + 1) v recs m
          else
            match m.alloc [] with
            | (none, m) => .ok (-2, v, recs, m)
            | (some p, m) =>
              match varRecord d size i with
              | .error e => .error e
              | .ok none => do
                  let m ← m.free p
                  .ok (-1, { v with more := if b = 0x1F then 1 else v.more }, recs, m)
              | .ok (some (r, i')) =>
                  varLoopOwned d size fuel i' { v with records := v.records ++ [r], nrecords := v.nrecords + 1,
                                                       more := if b = 0x1F then 1 else v.more } (recs ++ [p]) m
    else .ok (0, v, recs, m)

/-- mbus-protocol.c:3790-4008 `mbus_data_variable_parse`: a previous list (`recs`) is dropped (3823), except with a short header. -/
def variableParseOwned (f : Frame) (v : VarData) (recs : List Nat) (m : Mem) : C (Int × VarData × List Nat × Mem) :=
  if f.dataSize < 12 then .ok (-1, { v with nrecords := 0, more := 0 }, recs, m)
  else do
    let h ← varHeader f.data
    varLoopOwned f.data f.dataSize f.dataSize 12 { v with nrecords := 0, more := 0, header := h, records := [] } [] m

/-- mbus-protocol.c:4014-4085 `mbus_frame_data_parse` -/
def frameDataParseOwned (f : Frame) (x : FrameData) (recs : List Nat) (m : Mem) : C (Int × FrameData × List Nat × Mem) :=
  if f.control &&& MASK_DIR = MASK_DIR_S2M ∧ f.ci = 0x72 ∧ f.dataSize ≠ 0 then do
    let (r, y, recs, m) ← variableParseOwned f x.var recs m
    .ok (r, { x with type := DATA_VARIABLE, var := y }, recs, m)
  else do
    let (r, x) ← frameDataParse f x
    .ok (r, x, recs, m)

/-- mbus-protocol.c:5211-5218: the address as text. -/
def secondaryText (x : FrameData) : C (List Byte) := do
  let id ← bcdDecodeHex x.var.header.idBcd.bytes 4
  let m0 ← x.var.header.manufacturer.rd 0
  let m1 ← x.var.header.manufacturer.rd 1
  .ok (padZero 8 (hexDigits id.toNat) ++ fmtHex2 m0 ++ fmtHex2 m1 ++ fmtHex2 x.var.header.version ++ fmtHex2 x.var.header.medium)

/-- mbus-protocol.c:5204-5223: the part after the test of the control information; `p` is the block of `data`. -/
def readAddressOwned (f : Frame) (p : Nat) (m : Mem) : C (Option (List Byte) × Mem) := do
  let (r, x, recs, m) ← frameDataParseOwned f FrameData.new [] m
  if r = -1 then do
    let m ← m.freeList (recs ++ [p])
    .ok (none, m)
  else do
    let t ← secondaryText x
    let m ← m.freeList (recs ++ [p])
    .ok (some t, m)

/-- mbus-protocol.c:5183-5224 `mbus_frame_get_secondary_address(frame)` -/
def getSecondaryAddressOwned (f : Frame) (m : Mem) : C (Option (List Byte) × Mem) :=
  match m.alloc [] with
  | (none, m) => .ok (none, m)
  | (some p, m) =>
    if f.ci ≠ 0x72 then do
      let m ← m.free p
      .ok (none, m)
    else readAddressOwned f p m

/-- mbus-protocol-aux.c:2243-2276: what `mbus_select_secondary_address` does after the selection was sent. -/
def selectReply {σ : Type} (o : Ops σ) (s : σ) : C (Int × σ) := do
  let (ret, reply, s) ← o.recv s Frame.zero
  if ret = RECV_TIMEOUT then .ok (PROBE_NOTHING, s)
  else if ret = RECV_INVALID then do
    let (_, s) ← o.purge s
    .ok (PROBE_COLLISION, s)
  else if reply.type = TYPE_ACK then do
    let (p, s) ← o.purge s
    if p ≠ 0 then .ok (PROBE_COLLISION, s) else .ok (PROBE_SINGLE, s)
  else .ok (PROBE_NOTHING, s)

/-- mbus-protocol-aux.c:2227-2277 `mbus_select_secondary_address(handle, mask)` -/
def selectSecondaryOwned {σ : Type} (o : Ops σ) (s : σ) (m : Mem) (mask : List Byte) : C ((Int × σ) × Mem) :=
  if mask.length ≠ 16 then .ok ((PROBE_ERROR, s), m)
  else do
    let ((r, s), m) ← sendSelectOwned o s m mask
    if r = -1 then .ok ((PROBE_ERROR, s), m)
    else do
      let (c, s) ← selectReply o s
      .ok ((c, s), m)

/-- mbus-protocol-aux.c:2332-2351: the address of the answering meter. -/
def probeAnswerOwned {σ : Type} (o : Ops σ) (s : σ) (m : Mem) (reply : Frame) : C ((Int × Option (List Byte) × σ) × Mem) := do
  let (a, m) ← getSecondaryAddressOwned reply m
  match a with
  | none => .ok ((PROBE_NOTHING, none, s), m)
  | some addr => .ok ((PROBE_SINGLE, some (addr.take 16), o.found s (addr.take 16) reply), m)

/-- mbus-protocol-aux.c:2311-2357: after the request to the selected meter. -/
def probeReplyOwned {σ : Type} (o : Ops σ) (s : σ) (m : Mem) : C ((Int × Option (List Byte) × σ) × Mem) := do
  let (ret, reply, s) ← o.recv s Frame.zero
  if ret = RECV_TIMEOUT then .ok ((PROBE_NOTHING, none, s), m)
  else if ret = RECV_INVALID then do
    let (_, s) ← o.purge s
    .ok ((PROBE_COLLISION, none, s), m)
  else do
    let (p, s) ← o.purge s
    if p ≠ 0 then .ok ((PROBE_COLLISION, none, s), m)
    else if reply.type = TYPE_LONG then probeAnswerOwned o s m reply
    else .ok ((PROBE_NOTHING, none, s), m)

/-- mbus-protocol-aux.c:2299-2358: once the selection answered SINGLE. -/
def probeSelectedOwned {σ : Type} (o : Ops σ) (s : σ) (m : Mem) : C ((Int × Option (List Byte) × σ) × Mem) := do
  let ((r, s), m) ← sendRequestOwned o s m 0xFD
  if r = -1 then .ok ((PROBE_ERROR, none, s), m)
  else probeReplyOwned o s m

/-- mbus-protocol-aux.c:2294-2365: the retry loop of `mbus_probe_secondary_address`. -/
def probeLoopOwned {σ : Type} (o : Ops σ) (mask : List Byte) : (tries : Nat) → (ret : Int) → σ → Mem → C ((Int × Option (List Byte) × σ) × Mem)
  | 0, ret, s, m => .ok ((ret, none, s), m)
  | tries + 1, _, s, m => do
    let ((r, s), m) ← selectSecondaryOwned o s m mask
    if r = PROBE_SINGLE then probeSelectedOwned o s m
    else if r = PROBE_ERROR ∨ r = PROBE_COLLISION then .ok ((r, none, s), m)
    else probeLoopOwned o mask tries r s m

/-- mbus-protocol-aux.c:2283-2368 `mbus_probe_secondary_address(handle, mask, matching_addr)` -/
def probeSecondaryOwned {σ : Type} (o : Ops σ) (st : Settings) (s : σ) (m : Mem) (mask : List Byte) : C ((Int × Option (List Byte) × σ) × Mem) :=
  if mask.length ≠ 16 then .ok ((PROBE_ERROR, none, s), m)
  else probeLoopOwned o mask (st.maxSearchRetry + 1).toNat 0 s m

/-- mbus-protocol-aux.c:2498-2530: the loop over the digits; -1: left by `return -1` (the mask is not released then). -/
def scanLoopOwned {σ : Type} (o : Ops σ) (st : Settings) (pos : Nat) (sub : σ → Mem → List Byte → C ((Int × σ) × Mem)) (mask : List Byte) :
    (ds : List Byte) → σ → Mem → C ((Int × σ) × Mem)
  | [], s, m => .ok ((0, s), m)
  | d :: ds, s, m => do
    let ((r, _, s), m) ← probeSecondaryOwned o st (o.progress s (mask.set pos d)) m (mask.set pos d)
    if r = PROBE_SINGLE then scanLoopOwned o st pos sub (mask.set pos d) ds s m
    else if r = PROBE_COLLISION then do
      let ((_, s), m) ← sub s m (mask.set pos d)
      scanLoopOwned o st pos sub (mask.set pos d) ds s m
    else if r = PROBE_NOTHING then scanLoopOwned o st pos sub (mask.set pos d) ds s m
    else .ok ((-1, s), m)

/-- mbus-protocol-aux.c:2523-2533: after the loop: `return -1` inside it skips `free(mask)`; otherwise the mask (block `p`) is released. -/
def scanEnd {σ : Type} (p : Nat) (r : (Int × σ) × Mem) : C ((Int × σ) × Mem) :=
  if r.1.1 = -1 then .ok r
  else do
    let m ← r.2.free p
    .ok ((0, r.1.2), m)

/-- mbus-protocol-aux.c:2475-2533: after the copy of the mask was made. -/
def scanBody {σ : Type} (o : Ops σ) (st : Settings) (n : Nat) (sub : σ → Mem → List Byte → C ((Int × σ) × Mem)) (s : σ) (m : Mem) (mask : List Byte) (p : Nat) :
    C ((Int × σ) × Mem) := do
  let c ← rd mask (15 - n)
  if c = 102 ∨ c = 70 then scanLoopOwned o st (15 - n) sub mask decimalDigits s m >>= scanEnd p
  else if 15 - n < 15 then do
    let ((_, s), m) ← sub s m mask
    let m ← m.free p
    .ok ((0, s), m)
  else scanLoopOwned o st (15 - n) sub mask [c] s m >>= scanEnd p

/-- mbus-protocol-aux.c:2446-2534 `mbus_scan_2nd_address_range` for a 16-character mask and `pos = 16 - n`. -/
def scanAtOwned {σ : Type} (o : Ops σ) (st : Settings) : (n : Nat) → σ → Mem → List Byte → C ((Int × σ) × Mem)
  | 0, s, m, _ => .ok ((0, s), m)
  | n + 1, s, m, mask =>
    match m.alloc (mask ++ [0]) with
    | (none, m) => .ok ((-1, s), m)
    | (some p, m) => scanBody o st n (scanAtOwned o st n) s m mask p

/-- mbus-protocol-aux.c:2446-2534 `mbus_scan_2nd_address_range(handle, pos, addr_mask)` -/
def scanRangeOwned {σ : Type} (o : Ops σ) (st : Settings) (s : σ) (m : Mem) (pos : Int) (mask : List Byte) : C ((Int × σ) × Mem) :=
  if mask.length ≠ 16 then .ok ((-1, s), m)
  else if pos < 0 ∨ pos ≥ 16 then .ok ((0, s), m)
  else scanAtOwned o st (16 - pos.toNat) s m mask

/-- Result of `mbus_sendrecv_request` with memory: return code, the chain of reply frames (the caller's frame first), the blocks of
the other frames of the chain, the blocks `reply_data.data_var.record` refers to (released or not), the link state. -/
structure SrOwned (σ : Type) where
  code : Int
  chain : List Frame
  blocks : List Nat
  recs : List Nat
  state : σ

/-- mbus-protocol-aux.c:2148-2156: `next_frame->next = mbus_frame_new(MBUS_FRAME_TYPE_ANY)`; NULL: `retval = -1`, no further telegram.
`again` is the next round with the new frame, `stop` the end of the loop. -/
def nextFrame {α : Type} (m : Mem) (again : Nat → Mem → C α) (stop : Mem → C α) : C α :=
  match m.alloc [] with
  | (none, m) => stop m
  | (some q, m) => again q m

set_option linter.unusedVariables false in
/-- mbus-protocol-aux.c:2064-2174: the loop of `mbus_sendrecv_request` with memory; `blocks` are the frames allocated so far (2148), `recs`
the list `reply_data.data_var.record` refers to (the pointer is not cleared when the list is released, 2168-2172; releasing it again is
`doubleFree`).  Otherwise as `sendrecvLoop`. -/
def sendrecvLoopOwned {σ : Type} (o : Ops σ) (maxRetry maxFrames : Int) (s : σ) (req : Frame) (done : List Frame) (cur : Frame)
    (x : FrameData) (recs blocks : List Nat) (retry count : Int) (m : Mem) : C (SrOwned σ × Mem) :=
  if hr : retry > maxRetry then .ok (⟨1, done ++ [cur], blocks, recs, s⟩, m)
  else
    match o.send s req with
    | .error e => .error e
    | .ok (r, req, s) =>
    if r = -1 then .ok (⟨-1, done ++ [cur], blocks, recs, s⟩, m)
    else
      match o.recv s cur with
      | .error e => .error e
      | .ok (result, cur, s) =>
      if result = RECV_OK then
        match o.purge s with
        | .error e => .error e
        | .ok (_, s) =>
          match frameDataParseOwned cur x recs m with
          | .error e => .error e
          | .ok (pr, x, recs, m) =>
            if pr = -1 then .ok (⟨1, done ++ [cur], blocks, recs, s⟩, m)
            else
              if hm : x.type = DATA_VARIABLE ∧ x.var.more ≠ 0 ∧ maxFrames > 0 ∧ count + 1 < maxFrames then
                nextFrame m
                  (fun q m =>
                    match m.freeList recs with
                    | .error e => .error e
                    | .ok m =>
                      sendrecvLoopOwned o maxRetry maxFrames s { req with control := req.control ^^^ MASK_FCB } (done ++ [cur])
                        (frameNew TYPE_ANY) x recs (blocks ++ [q]) 0 (count + 1) m)
                  (fun m =>
                    match m.freeList recs with
                    | .error e => .error e
                    | .ok m => .ok (⟨-1, done ++ [cur], blocks, recs, s⟩, m))
              else
                match m.freeList recs with
                | .error e => .error e
                | .ok m => .ok (⟨0, done ++ [cur], blocks, recs, s⟩, m)
      else if result = RECV_TIMEOUT then
        sendrecvLoopOwned o maxRetry maxFrames s req done cur x recs blocks (retry + 1) count m
      else if result = RECV_INVALID then
        match o.purge s with
        | .error e => .error e
        | .ok (_, s) => sendrecvLoopOwned o maxRetry maxFrames s req done cur x recs blocks (retry + 1) count m
      else .ok (⟨1, done ++ [cur], blocks, recs, s⟩, m)
termination_by ((maxFrames - count).toNat, (maxRetry + 1 - retry).toNat)
decreasing_by
  · apply Prod.Lex.left; omega
  · apply Prod.Lex.right; omega
  · apply Prod.Lex.right; omega

/-- mbus-protocol-aux.c:2020-2179 `mbus_sendrecv_request(handle, address, reply, max_frames)` with memory: the request frame is
allocated (2042; NULL: -1) and released at the end (2176). -/
def sendrecvRequestOwned {σ : Type} (o : Ops σ) (st : Settings) (s : σ) (m : Mem) (address : Int) (reply : Frame) (maxFrames : Int) :
    C (SrOwned σ × Mem) :=
  if isPrimaryAddress address = false then .ok (⟨1, [reply], [], [], s⟩, m)
  else
    match m.alloc [] with
    | (none, m) => .ok (⟨-1, [reply], [], [], s⟩, m)
    | (some p, m) => do
        let (out, m) ← sendrecvLoopOwned o st.maxDataRetry maxFrames s
          { frameNew TYPE_SHORT with control := MASK_REQ_UD2 ||| MASK_DIR_M2S ||| MASK_FCV ||| MASK_FCB, address := UInt8.ofNat address.toNat }
          [] reply FrameData.new [] [] 0 0 m
        let m ← m.free p
        .ok (out, m)

end Mbus
