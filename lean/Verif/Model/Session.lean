import Verif.Model.Transport
import Verif.Model.Address
/-
Model of the handle and of the bus-session functions of mbus/mbus-protocol-aux.c: receive with echo suppression, purge, the
commands, the multi-telegram request, selection, probing and the secondary scan.

A link is what a handle's `send` and `recv` function pointers provide.  Its state `σ` stands for everything outside the
library (the descriptor, the bus, the meters).  Not modelled: the texts written to stderr / the error string, `debug` output,
`malloc` and `strdup` failure, NULL handles, time.
-/
namespace Mbus

/-- mbus-protocol-aux.h:84-101: the `send` / `recv` pointers of a handle, with the facts about them that the session functions
rely on (proved for both transports in Lemmas/Session).  `pending` bounds what can still be received without a further
transmission: a bus that talks for ever is excluded (`mbus_purge_frames` would never return on it). -/
structure Link (σ : Type) where
  send : σ → Frame → C (Int × Frame × σ)
  recv : σ → Frame → C (Int × Frame × σ)
  pending : σ → Nat
  recv_le : ∀ s f c f' s', recv s f = .ok (c, f', s') → pending s' ≤ pending s
  recv_lt : ∀ s f c f' s', recv s f = .ok (c, f', s') → c = RECV_OK ∨ c = RECV_INVALID → pending s' < pending s

/-- The options of a handle: mbus-protocol-aux.h:86-88. -/
structure Settings where
  maxDataRetry : Int
  maxSearchRetry : Int
  purgeFirst : Int
  deriving DecidableEq, Repr

/-- mbus-protocol-aux.h:79-81 -/
def PURGE_NONE : Int := 0
def PURGE_M2S : Int := 1
def PURGE_S2M : Int := 2

/-- mbus-protocol-aux.c:1523-1526, 1571-1574: the options of a new handle (`mbus_context_serial`, `mbus_context_tcp`). -/
def Settings.default : Settings := ⟨3, 1, PURGE_M2S⟩

/-- mbus-protocol-aux.c:1635-1672 `mbus_context_set_option(handle, option, value)`; the enumeration is
mbus-protocol-aux.h `mbus_context_option`: 0 MAX_DATA_RETRY, 1 MAX_SEARCH_RETRY, 2 PURGE_FIRST_FRAME. -/
def setOption (st : Settings) (option value : Int) : Int × Settings :=
  if option = 0 then
    if 0 ≤ value ∧ value ≤ 9 then (0, { st with maxDataRetry := value }) else (-1, st)
  else if option = 1 then
    if 0 ≤ value ∧ value ≤ 9 then (0, { st with maxSearchRetry := value }) else (-1, st)
  else if option = 2 then
    if value = PURGE_NONE ∨ value = PURGE_M2S ∨ value = PURGE_S2M then (0, { st with purgeFirst := value }) else (-1, st)
  else (-1, st)

/-- mbus-protocol-aux.c:1674-1712 `mbus_recv_frame(handle, frame)` (non-NULL; the timestamp is not modelled). -/
def recvFrame {σ : Type} (l : Link σ) (purge : Int) (s : σ) (f : Frame) : C (Int × Frame × σ) := do
  let (r, f, s) ← l.recv s f
  if frameDirection f = MASK_DIR_M2S then
    if purge = PURGE_M2S then l.recv s f else .ok (r, f, s)
  else if frameDirection f = MASK_DIR_S2M then
    if purge = PURGE_S2M then l.recv s f else .ok (r, f, s)
  else .ok (r, f, s)

theorem recvFrame_lt {σ : Type} (l : Link σ) (purge : Int) (s : σ) (f : Frame) (c : Int) (f' : Frame) (s' : σ)
    (h : recvFrame l purge s f = .ok (c, f', s')) (hc : c = RECV_OK ∨ c = RECV_INVALID) : l.pending s' < l.pending s := by
  unfold recvFrame at h
  rw [bind_eq_ok] at h
  obtain ⟨⟨r, g, t⟩, h1, h2⟩ := h
  have hle := l.recv_le _ _ _ _ _ h1
  have again : l.recv t g = .ok (c, f', s') → l.pending s' < l.pending s := fun h => by
    have := l.recv_lt _ _ _ _ _ h hc; omega
  have once : (Except.ok (r, g, t) : C (Int × Frame × σ)) = .ok (c, f', s') → l.pending s' < l.pending s := fun h => by
    simp only [Except.ok.injEq, Prod.mk.injEq] at h
    obtain ⟨rfl, rfl, rfl⟩ := h
    exact l.recv_lt _ _ _ _ _ h1 hc
  simp only at h2
  split at h2
  · split at h2
    · exact again h2
    · exact once h2
  · split at h2
    · split at h2
      · exact again h2
      · exact once h2
    · exact once h2

set_option linter.unusedVariables false in
/-- mbus-protocol-aux.c:1722-1730: the loop of `mbus_purge_frames`. -/
def purgeLoop {σ : Type} (l : Link σ) (purge : Int) (s : σ) (reply : Frame) (received : Int) : C (Int × σ) :=
  match h : recvFrame l purge s reply with
  | .error e => .error e
  | .ok (err, reply', s') =>
    if hc : err ≠ RECV_OK ∧ err ≠ RECV_INVALID then .ok (received, s')
    else purgeLoop l purge s' reply' 1
termination_by l.pending s
decreasing_by
  refine recvFrame_lt l purge s reply err reply' s' h ?_
  by_cases h0 : err = RECV_OK
  · exact .inl h0
  · exact .inr (Decidable.byContradiction fun h1 => hc ⟨h0, h1⟩)

/-- mbus-protocol-aux.c:1714-1733 `mbus_purge_frames(handle)`. -/
def purgeFrames {σ : Type} (l : Link σ) (purge : Int) (s : σ) : C (Int × σ) := purgeLoop l purge s Frame.zero 0

/-- What the session functions use: `mbus_send_frame` (1735-1745: the `send` pointer), `mbus_recv_frame`, `mbus_purge_frames`
and the two callbacks of the scan.  `found` stands for `found_event` (2341-2344) or, when that is not registered, for the
line printed by the scan (2505-2508). -/
structure Ops (σ : Type) where
  send : σ → Frame → C (Int × Frame × σ)
  recv : σ → Frame → C (Int × Frame × σ)
  purge : σ → C (Int × σ)
  progress : σ → List Byte → σ
  found : σ → List Byte → Frame → σ

/-- the operations of a handle on link `l` with purge option `purge` and no observable callbacks -/
def Link.ops {σ : Type} (l : Link σ) (purge : Int) : Ops σ :=
  { send := l.send, recv := recvFrame l purge, purge := purgeFrames l purge, progress := fun s _ => s, found := fun s _ _ => s }

/-! ### commands -/

/-- mbus-protocol-aux.c:1905-1936 `mbus_send_request_frame(handle, address)` -/
def sendRequest {σ : Type} (o : Ops σ) (s : σ) (address : Int) : C (Int × σ) :=
  if isPrimaryAddress address = false then .ok (-1, s)
  else do
    let f := { frameNew TYPE_SHORT with control := MASK_REQ_UD2 ||| MASK_DIR_M2S, address := UInt8.ofNat address.toNat }
    let (r, _, s) ← o.send s f
    if r = -1 then .ok (-1, s) else .ok (0, s)

/-- mbus-protocol-aux.c:2185-2222 `mbus_send_ping_frame(handle, address, purge_response)` -/
def sendPing {σ : Type} (o : Ops σ) (s : σ) (address : Int) (purgeResponse : Bool) : C (Int × σ) :=
  if isPrimaryAddress address = false then .ok (1, s)
  else do
    let f := { frameNew TYPE_SHORT with control := MASK_SND_NKE ||| MASK_DIR_M2S, address := UInt8.ofNat address.toNat }
    let (r, _, s) ← o.send s f
    if r = -1 then .ok (-1, s)
    else if purgeResponse then do
      let (_, s) ← o.purge s
      .ok (0, s)
    else .ok (0, s)

/-- mbus-protocol-aux.c:1794-1823: the control information byte for a baud rate; `none`: not supported. -/
def baudCode (baud : Int) : Option Byte :=
  if baud = 300 then some 0xB8
  else if baud = 600 then some 0xB9
  else if baud = 1200 then some 0xBA
  else if baud = 2400 then some 0xBB
  else if baud = 4800 then some 0xBC
  else if baud = 9600 then some 0xBD
  else if baud = 19200 then some 0xBE
  else if baud = 38400 then some 0xBF
  else none

/-- mbus-protocol-aux.c:1781-1845 `mbus_send_switch_baudrate_frame(handle, address, baudrate)` -/
def sendBaud {σ : Type} (o : Ops σ) (s : σ) (address baud : Int) : C (Int × σ) :=
  if isPrimaryAddress address = false then .ok (-1, s)
  else
    match baudCode baud with
    | none => .ok (-1, s)
    | some ci => do
      let f := { frameNew TYPE_CONTROL with control := MASK_SND_UD ||| MASK_DIR_M2S, address := UInt8.ofNat address.toNat, ci := ci }
      let (r, _, s) ← o.send s f
      if r = -1 then .ok (-1, s) else .ok (0, s)

/-- mbus-protocol-aux.c:1851-1899 `mbus_send_application_reset_frame(handle, address, subcode)` -/
def sendAppReset {σ : Type} (o : Ops σ) (s : σ) (address subcode : Int) : C (Int × σ) :=
  if isPrimaryAddress address = false then .ok (-1, s)
  else if subcode > 0xFF then .ok (-1, s)
  else do
    let f := { frameNew TYPE_LONG with control := MASK_SND_UD ||| MASK_DIR_M2S, address := UInt8.ofNat address.toNat, ci := 0x50 }
    let f ← if subcode ≥ 0 then do
        let d ← f.data.wr 0 (UInt8.ofNat subcode.toNat)
        .ok { f with dataSize := 1, data := d }
      else .ok { f with dataSize := 0 }
    let (r, _, s) ← o.send s f
    if r = -1 then .ok (-1, s) else .ok (0, s)

/-- `memcpy(dst, data, n)` into a frame's data array -/
def copyInto (d : Buf 252) (data : List Byte) (n : Nat) : C (Buf 252) :=
  if n > 252 then .error (.oobWrite 252 252)
  else if h : n ≤ 252 ∧ n ≤ data.length then .ok ⟨data.take n ++ d.bytes.drop n, by simp; omega⟩
  else .error (.oobRead data.length data.length)

/-- mbus-protocol-aux.c:1941-1987 `mbus_send_user_data_frame(handle, address, data, data_size)`, data non-NULL. -/
def sendUserData {σ : Type} (o : Ops σ) (s : σ) (address : Int) (data : List Byte) (size : Nat) : C (Int × σ) :=
  if isPrimaryAddress address = false then .ok (-1, s)
  else if size > 252 ∨ size = 0 then .ok (-1, s)
  else do
    let f := { frameNew TYPE_LONG with control := MASK_SND_UD ||| MASK_DIR_M2S, address := UInt8.ofNat address.toNat, ci := 0x51,
                                       dataSize := size }
    let d ← copyInto f.data data size
    let (r, _, s) ← o.send s { f with data := d }
    if r = -1 then .ok (-1, s) else .ok (0, s)

/-- conversion of an `int` to `unsigned char` -/
def ucharOfInt (z : Int) : Byte := UInt8.ofNat (z % 256).toNat

/-- mbus-protocol-aux.c:1992-2014 `mbus_set_primary_address(handle, old_address, new_address)` -/
def setPrimaryAddress {σ : Type} (o : Ops σ) (s : σ) (oldAddr newAddr : Int) : C (Int × σ) :=
  if isPrimaryAddress newAddr = false then .ok (-1, s)
  else if newAddr = 0xFD ∨ newAddr = 0xFE ∨ newAddr = 0xFF then .ok (-1, s)
  else sendUserData o s oldAddr [0x01, 0x7A, ucharOfInt newAddr] 3

/-- mbus-protocol-aux.c:1752-1775 `mbus_send_select_frame(handle, secondary_addr_str)` -/
def sendSelect {σ : Type} (o : Ops σ) (s : σ) (mask : List Byte) : C (Int × σ) := do
  let (r, f) ← selectPack (frameNew TYPE_LONG) mask
  if r = -1 then .ok (-1, s)
  else do
    let (r, _, s) ← o.send s f
    if r = -1 then .ok (-1, s) else .ok (0, s)

/-! ### selection, probing, scan -/

/-- mbus-protocol-aux.h:74-77 -/
def PROBE_NOTHING : Int := 0
def PROBE_SINGLE : Int := 1
def PROBE_COLLISION : Int := 2
def PROBE_ERROR : Int := -1

/-- mbus-protocol-aux.c:2227-2277 `mbus_select_secondary_address(handle, mask)`, mask non-NULL (a text without NUL). -/
def selectSecondary {σ : Type} (o : Ops σ) (s : σ) (mask : List Byte) : C (Int × σ) :=
  if mask.length ≠ 16 then .ok (PROBE_ERROR, s)
  else do
    let (r, s) ← sendSelect o s mask
    if r = -1 then .ok (PROBE_ERROR, s)
    else do
      let (ret, reply, s) ← o.recv s Frame.zero
      if ret = RECV_TIMEOUT then .ok (PROBE_NOTHING, s)
      else if ret = RECV_INVALID then do
        let (_, s) ← o.purge s
        .ok (PROBE_COLLISION, s)
      else if reply.type = TYPE_ACK then do
        let (p, s) ← o.purge s
        if p ≠ 0 then .ok (PROBE_COLLISION, s) else .ok (PROBE_SINGLE, s)
      else .ok (PROBE_NOTHING, s)

/-- mbus-protocol-aux.c:2299-2358: what `mbus_probe_secondary_address` does once the selection answered SINGLE: the result, the
text stored in `matching_addr`, if any. -/
def probeSelected {σ : Type} (o : Ops σ) (s : σ) : C (Int × Option (List Byte) × σ) := do
  let (r, s) ← sendRequest o s 0xFD
  if r = -1 then .ok (PROBE_ERROR, none, s)
  else do
    let (ret, reply, s) ← o.recv s Frame.zero
    if ret = RECV_TIMEOUT then .ok (PROBE_NOTHING, none, s)
    else if ret = RECV_INVALID then do
      let (_, s) ← o.purge s
      .ok (PROBE_COLLISION, none, s)
    else do
      let (p, s) ← o.purge s
      if p ≠ 0 then .ok (PROBE_COLLISION, none, s)
      else if reply.type = TYPE_LONG then do
        match ← getSecondaryAddress reply with
        | none => .ok (PROBE_NOTHING, none, s)
        | some addr => .ok (PROBE_SINGLE, some (addr.take 16), o.found s (addr.take 16) reply)
      else .ok (PROBE_NOTHING, none, s)

/-- mbus-protocol-aux.c:2294-2365: the retry loop of `mbus_probe_secondary_address`; `tries` is the number of iterations left.
(`ret` would be uninitialised for a negative retry limit; the options do not allow that, C53.) -/
def probeLoop {σ : Type} (o : Ops σ) (s : σ) (mask : List Byte) (ret : Int) : (tries : Nat) → C (Int × Option (List Byte) × σ)
  | 0 => .ok (ret, none, s)
  | tries + 1 => do
    let (r, s) ← selectSecondary o s mask
    if r = PROBE_SINGLE then probeSelected o s
    else if r = PROBE_ERROR ∨ r = PROBE_COLLISION then .ok (r, none, s)
    else probeLoop o s mask r tries

/-- mbus-protocol-aux.c:2283-2368 `mbus_probe_secondary_address(handle, mask, matching_addr)`, non-NULL. -/
def probeSecondary {σ : Type} (o : Ops σ) (st : Settings) (s : σ) (mask : List Byte) : C (Int × Option (List Byte) × σ) :=
  if mask.length ≠ 16 then .ok (PROBE_ERROR, none, s)
  else probeLoop o s mask 0 (st.maxSearchRetry + 1).toNat

/-- mbus-protocol-aux.c:2498-2530: the loop over the digits `ds` at position `pos`; `sub` is the recursive call for `pos + 1`.
Result: the return code if the loop was left by `return -1`. -/
def scanLoop {σ : Type} (o : Ops σ) (st : Settings) (pos : Nat) (sub : σ → List Byte → C (Int × σ)) (mask : List Byte) :
    (ds : List Byte) → σ → C (Int × σ)
  | [], s => .ok (0, s)
  | d :: ds, s => do
    let mask := mask.set pos d
    let s := o.progress s mask
    let (r, _, s) ← probeSecondary o st s mask
    if r = PROBE_SINGLE then scanLoop o st pos sub mask ds s
    else if r = PROBE_COLLISION then do
      let (_, s) ← sub s mask
      scanLoop o st pos sub mask ds s
    else if r = PROBE_NOTHING then scanLoop o st pos sub mask ds s
    else .ok (-1, s)

/-- '0' .. '9' -/
def decimalDigits : List Byte := [48, 49, 50, 51, 52, 53, 54, 55, 56, 57]

/-- mbus-protocol-aux.c:2446-2534 `mbus_scan_2nd_address_range(handle, pos, addr_mask)` for a 16-character mask and
`pos = 16 - n`. -/
def scanAt {σ : Type} (o : Ops σ) (st : Settings) : (n : Nat) → σ → List Byte → C (Int × σ)
  | 0, s, _ => .ok (0, s)
  | n + 1, s, mask => do
    let pos := 15 - n
    let c ← rd mask pos
    if c = 102 ∨ c = 70 then scanLoop o st pos (scanAt o st n) mask decimalDigits s
    else if pos < 15 then do
      let (_, s) ← scanAt o st n s mask
      .ok (0, s)
    else scanLoop o st pos (scanAt o st n) mask [c] s

/-- mbus-protocol-aux.c:2446-2534 `mbus_scan_2nd_address_range(handle, pos, addr_mask)`, non-NULL. -/
def scanRange {σ : Type} (o : Ops σ) (st : Settings) (s : σ) (pos : Int) (mask : List Byte) : C (Int × σ) :=
  if mask.length ≠ 16 then .ok (-1, s)
  else if pos < 0 ∨ pos ≥ 16 then .ok (0, s)
  else scanAt o st (16 - pos.toNat) s mask

/-! ### requests -/

/-- the two kinds of `mbus_address` -/
inductive Address where
  | primary (a : Int)
  | secondary (text : List Byte)
  deriving DecidableEq, Repr

/-- mbus-protocol-aux.c:2371-2441 `mbus_read_slave(handle, address, reply)`, non-NULL: return code and `*reply`. -/
def readSlave {σ : Type} (o : Ops σ) (s : σ) (addr : Address) (reply : Frame) : C (Int × Frame × σ) := do
  let (r, s) ← match addr with
    | .primary a => sendRequest o s a
    | .secondary t => do
      let (p, s) ← selectSecondary o s t
      if p = PROBE_COLLISION then .ok (-1, s)
      else if p = PROBE_NOTHING then .ok (-1, s)
      else if p = PROBE_ERROR then .ok (-1, s)
      else sendRequest o s 0xFD
  if r = -1 then .ok (-1, reply, s)
  else do
    let (c, reply, s) ← o.recv s reply
    if c ≠ 0 then .ok (-1, reply, s) else .ok (0, reply, s)

/-- State of the pointer `reply_data.data_var.record` in `mbus_sendrecv_request`. -/
inductive RecPtr where
  | null
  | live
  | freed
  deriving DecidableEq, Repr

/-- What `mbus_frame_data_parse` does to that pointer (`x` is the parse result): variable data with a complete header replace it
(mbus-protocol.c:3823 and `mbus_data_record_append`), other telegrams leave it alone. -/
def RecPtr.parse (p : RecPtr) (f : Frame) (x : FrameData) : RecPtr :=
  if f.control &&& MASK_DIR = MASK_DIR_S2M ∧ f.ci = 0x72 ∧ 12 ≤ f.dataSize then (if x.var.records = [] then .null else .live) else p

/-- mbus-protocol-aux.c:2168-2172: `if (record) mbus_data_record_free(record)`; the pointer is not cleared. -/
def RecPtr.free : RecPtr → C RecPtr
  | .null => .ok .null
  | .live => .ok .freed
  | .freed => .error .doubleFree

/-- Result of `mbus_sendrecv_request`: return code, the chain of reply frames (the caller's frame first), the record pointer
(`live` at the end: leaked), the link state. -/
structure SrOut (σ : Type) where
  code : Int
  chain : List Frame
  recs : RecPtr
  state : σ

set_option linter.unusedVariables false in
/-- mbus-protocol-aux.c:2064-2174: the loop of `mbus_sendrecv_request`.  `req` is the request frame, `done` the finished frames
of the chain, `cur` the frame `next_frame` points to. -/
def sendrecvLoop {σ : Type} (o : Ops σ) (maxRetry maxFrames : Int) (s : σ) (req : Frame) (done : List Frame) (cur : Frame)
    (x : FrameData) (p : RecPtr) (retry count : Int) : C (SrOut σ) :=
  if hr : retry > maxRetry then .ok ⟨1, done ++ [cur], p, s⟩
  else
    match o.send s req with
    | .error e => .error e
    | .ok (r, req, s) =>
    if r = -1 then .ok ⟨-1, done ++ [cur], p, s⟩
    else
      match o.recv s cur with
      | .error e => .error e
      | .ok (result, cur, s) =>
      if result = RECV_OK then
        match o.purge s with
        | .error e => .error e
        | .ok (_, s) =>
          let count := count + 1
          match frameDataParse cur x with
          | .error e => .error e
          | .ok (pr, x) =>
            if pr = -1 then .ok ⟨1, done ++ [cur], p.parse cur x, s⟩
            else
              let p := p.parse cur x
              if hm : x.type = DATA_VARIABLE ∧ x.var.more ≠ 0 ∧ maxFrames > 0 ∧ count < maxFrames then
                match p.free with
                | .error e => .error e
                | .ok p =>
                  sendrecvLoop o maxRetry maxFrames s { req with control := req.control ^^^ MASK_FCB } (done ++ [cur])
                    (frameNew TYPE_ANY) x p 0 count
              else
                match p.free with
                | .error e => .error e
                | .ok p => .ok ⟨0, done ++ [cur], p, s⟩
      else if result = RECV_TIMEOUT then
        sendrecvLoop o maxRetry maxFrames s req done cur x p (retry + 1) count
      else if result = RECV_INVALID then
        match o.purge s with
        | .error e => .error e
        | .ok (_, s) => sendrecvLoop o maxRetry maxFrames s req done cur x p (retry + 1) count
      else .ok ⟨1, done ++ [cur], p, s⟩
termination_by ((maxFrames - count).toNat, (maxRetry + 1 - retry).toNat)
decreasing_by
  · apply Prod.Lex.left; omega
  · apply Prod.Lex.right; omega
  · apply Prod.Lex.right; omega

/-- mbus-protocol-aux.c:2020-2179 `mbus_sendrecv_request(handle, address, reply, max_frames)`, non-NULL. -/
def sendrecvRequest {σ : Type} (o : Ops σ) (st : Settings) (s : σ) (address : Int) (reply : Frame) (maxFrames : Int) : C (SrOut σ) :=
  if isPrimaryAddress address = false then .ok ⟨1, [reply], .null, s⟩
  else
    sendrecvLoop o st.maxDataRetry maxFrames s
      { frameNew TYPE_SHORT with control := MASK_REQ_UD2 ||| MASK_DIR_M2S ||| MASK_FCV ||| MASK_FCB, address := UInt8.ofNat address.toNat }
      [] reply FrameData.new .null 0 0

end Mbus
