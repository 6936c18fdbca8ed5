import Verif.Model.Heap
import Verif.Model.Record
import Verif.Model.Address
import Verif.Model.Transport
import Verif.Model.Lifecycle
import Verif.Model.Xml
/-
The messages in `error_str` (mbus-protocol.c:19), which `mbus_error_str()` shows: the functions of Model/Frame, Record, Address, Transport,
Lifecycle and Xml again, with the text each call stores.  `none`: the call leaves `error_str` unchanged.
-/
namespace Mbus

/-- the text a call stores in `error_str` -/
abbrev Said := Option (List Byte)

/-- `snprintf(error_str, sizeof(error_str), ...)` of the texts a call stores, if any -/
def say (e : List Byte) : Said → C (List Byte)
  | none => .ok e
  | some t => snprintfAt e 0 e.length t

/-- `%x`: lower-case hexadecimal digits -/
def hexDigitsL (n : Nat) : List Byte :=
  if _h : n < 16 then [hexDigitL n] else hexDigitsL (n / 16) ++ [hexDigitL (n % 16)]
termination_by n

/-- `%.2x` of an `int`, which is read as `unsigned int` -/
def fmtHexIntL (z : Int) : List Byte :=
  let n := (z % 2 ^ 32).toNat
  if n < 16 then 48 :: hexDigitsL n else hexDigitsL n

/-- mbus-protocol.c:371, 395 -/
def msgControl (c : Byte) : List Byte := cs! "Unknown Control Code 0x" ++ fmtHex2L c

/-- mbus-protocol.c:421-436, the end of `mbus_frame_verify`: stop byte and checksum -/
def verifyTailE (f : Frame) : C (Int × Said) :=
  if f.stop ≠ FRAME_STOP then .ok (-1, some (cs! "No frame stop"))
  else do
    let ck ← calcChecksum f
    if f.checksum ≠ ck then
      .ok (-1, some (cs! "Invalid checksum (0x" ++ fmtHex2L f.checksum ++ cs! " != 0x" ++ fmtHex2L ck ++ cs! ")"))
    else .ok (0, none)

/-- mbus-protocol.c:345-444 `mbus_frame_verify` (frame non-NULL) with its message -/
def frameVerifyE (f : Frame) : C (Int × Said) :=
  if f.type = TYPE_ACK then .ok (if f.start1 = ACK_START then 1 else 0, none)
  else if f.type = TYPE_SHORT then
    if f.start1 ≠ SHORT_START then .ok (-1, some (cs! "No frame start"))
    else if f.control ≠ MASK_SND_NKE ∧ f.control ≠ MASK_REQ_UD1 ∧ f.control ≠ (MASK_REQ_UD1 ||| MASK_FCB) ∧
            f.control ≠ MASK_REQ_UD2 ∧ f.control ≠ (MASK_REQ_UD2 ||| MASK_FCB) then .ok (-1, some (msgControl f.control))
    else verifyTailE f
  else if f.type = TYPE_CONTROL ∨ f.type = TYPE_LONG then
    if f.start1 ≠ CONTROL_START ∨ f.start2 ≠ CONTROL_START then .ok (-1, some (cs! "No frame start"))
    else if f.control ≠ MASK_SND_UD ∧ f.control ≠ (MASK_SND_UD ||| MASK_FCB) ∧ f.control ≠ MASK_RSP_UD ∧
            f.control ≠ (MASK_RSP_UD ||| MASK_DFC) ∧ f.control ≠ (MASK_RSP_UD ||| MASK_ACD) ∧
            f.control ≠ (MASK_RSP_UD ||| MASK_DFC ||| MASK_ACD) then .ok (-1, some (msgControl f.control))
    else if f.length1 ≠ f.length2 then .ok (-1, some (cs! "Frame length 1 != 2"))
    else if f.length1 ≠ calcLength f then .ok (-1, some (cs! "Frame length 1 != calc length"))
    else verifyTailE f
  else .ok (-1, some (cs! "Unknown frame type 0x" ++ fmtHexIntL f.type))

/-- mbus-protocol.c:3587-3745 `mbus_parse(frame, data, data_size)` (non-NULL arguments) with its message -/
def mbusParseE (f : Frame) (data : List Byte) (size : Nat) : C (Int × Frame × Said) :=
  if size = 0 then .ok (-1, f, some (cs! "Got null pointer to frame, data or zero data_size."))
  else do
    let d0 ← rd data 0
    if d0 = ACK_START then .ok (0, { f with start1 := d0, type := TYPE_ACK }, none)
    else if d0 = SHORT_START then
      if size < 5 then .ok (5 - (size : Int), f, none)
      else if size ≠ 5 then .ok (-2, f, some (cs! "Too much data in frame."))
      else do
        let c ← rd data 1
        let a ← rd data 2
        let ck ← rd data 3
        let st ← rd data 4
        let f := { f with start1 := d0, control := c, address := a, checksum := ck, stop := st, type := TYPE_SHORT }
        let (v, m) ← frameVerifyE f
        if v ≠ 0 then .ok (-3, f, m) else .ok (0, f, m)
    else if d0 = LONG_START then
      if size < 3 then .ok (3 - (size : Int), f, none)
      else do
        let l1 ← rd data 1
        let l2 ← rd data 2
        let f := { f with start1 := d0, length1 := l1, length2 := l2 }
        if f.length1 < 3 then .ok (-2, f, some (cs! "Invalid M-Bus frame length."))
        else if f.length1 ≠ f.length2 then .ok (-2, f, some (cs! "Invalid M-Bus frame length."))
        else
          let len := f.length1.toNat
          if size < 6 + len then .ok (((6 + len - size : Nat) : Int), f, none)
          else if size > 6 + len then .ok (-2, f, some (cs! "Too much data in frame."))
          else do
            let s2 ← rd data 3
            let c ← rd data 4
            let a ← rd data 5
            let ci ← rd data 6
            let f := { f with start2 := s2, control := c, address := a, ci := ci, dataSize := len - 3 }
            let buf ← forN f.dataSize 0 f.data fun i b => do
              let x ← rd data (7 + i)
              b.wr i x
            let ck ← rd data (size - 2)
            let st ← rd data (size - 1)
            let f := { f with data := buf, checksum := ck, stop := st,
                              type := if f.dataSize = 0 then TYPE_CONTROL else TYPE_LONG }
            let (v, m) ← frameVerifyE f
            if v ≠ 0 then .ok (-3, f, m) else .ok (0, f, m)
    else .ok (-4, f, some (cs! "Invalid M-Bus frame start."))

/-! ### application layer; `.inl`: the message of the failure -/

/-- mbus-protocol.c:3876-3893, the DIFE loop, and 3938-3955, the VIFE loop, with the message `m` of the failure -/
def extLoopE (m : List Byte) (d : Buf 252) (size : Nat) : (room : Nat) → (i n : Nat) → Buf 10 → C (List Byte ⊕ Nat × Nat × Buf 10)
  | room, i, n, exts =>
    if i < size then do
      let b ← d.rd i
      if b &&& 0x80 ≠ 0 then
        match room with
        | 0 => .ok (.inl m)
        | room + 1 => do
            let x ← d.rd (i + 1)
            let exts ← exts.wr n x
            extLoopE m d size room (i + 1) (n + 1) exts
      else .ok (.inr (i, n, exts))
    else .ok (.inr (i, n, exts))

/-- mbus-protocol.c:3904-3928 -/
def vifPartE (d : Buf 252) (size i : Nat) (custom : Buf 128) : C (List Byte ⊕ Nat × Byte × Buf 128) := do
  let vif ← d.rd i
  let i := i + 1
  if vif &&& 0x7F = 0x7C then do
    let len ← d.rd i
    let len := len.toNat
    let i := i + 1
    if len > 128 then .ok (.inl (cs! "Too long variable length VIF."))
    else if i + len > size then .ok (.inl (cs! "Premature end of record at variable length VIF."))
    else do
      let c ← strDecode custom.bytes (d.bytes.drop i) len
      .ok (.inr (i + len, vif, if h : c.length = 128 then ⟨c, h⟩ else custom))
  else .ok (.inr (i, vif, custom))

/-- mbus-protocol.c:3930-3957 -/
def vifePartE (d : Buf 252) (size i : Nat) (vif : Byte) (vife : Buf 10) : C (List Byte ⊕ Nat × Nat × Buf 10) :=
  if vif &&& 0x80 ≠ 0 then do
    let x ← d.rd i
    let vife ← vife.wr 0 x
    match ← extLoopE (cs! "Too many VIFE.") d size 9 i 1 vife with
    | .inl m => .ok (.inl m)
    | .inr (i, n, vife) => .ok (.inr (i + 1, n, vife))
  else .ok (.inr (i, 0, vife))

/-- mbus-protocol.c:3834-4001 -/
def varRecordE (d : Buf 252) (size i : Nat) : C (List Byte ⊕ Record × Nat) := do
  let dif ← d.rd i
  let r := { Record.new with dif := dif }
  if dif = 0x0F ∨ dif = 0x1F then do
    let i := i + 1
    let len := size - i
    let data ← copyData d i len r.data
    .ok (.inr ({ r with data := data, dataLen := len }, i + len))
  else do
    let len := difLength dif
    match ← extLoopE (cs! "Too many DIFE.") d size 10 i 0 r.dife with
    | .inl m => .ok (.inl m)
    | .inr (i, ndife, dife) => do
      let i := i + 1
      if i > size then .ok (.inl (cs! "Premature end of record at DIF."))
      else do
        match ← vifPartE d size i r.customVif with
        | .inl m => .ok (.inl m)
        | .inr (i, vif, custom) => do
          match ← vifePartE d size i vif r.vife with
          | .inl m => .ok (.inl m)
          | .inr (i, nvife, vife) => do
            if i > size then .ok (.inl (cs! "Premature end of record at VIF."))
            else do
              let len ← if dif &&& 0x0F = 0x0D then do
                  let b ← d.rd i
                  .ok (lvarLength b len)
                else .ok len
              if i + len > size then .ok (.inl (cs! "Premature end of record at data."))
              else do
                let data ← copyData d i len r.data
                .ok (.inr ({ dif := dif, dife := dife, ndife := ndife, vif := vif, vife := vife, nvife := nvife,
                             customVif := custom, data := data, dataLen := len }, i + len))

/-- mbus-protocol.c:3825-4002 -/
def varLoopE (d : Buf 252) (size : Nat) : (fuel : Nat) → (i : Nat) → VarData → C (Int × VarData × Said)
  | fuel, i, v =>
    if i < size then
      match fuel with
      | 0 => .error .outOfFuel
      | fuel + 1 => do
        let b ← d.rd i
        if b = 0x2F then varLoopE d size fuel (i + 1) v
        else do
          match ← varRecordE d size i with
          | .inl m => .ok (-1, { v with more := if b = 0x1F then 1 else v.more }, some m)
          | .inr (r, i') =>
              varLoopE d size fuel i' { v with records := v.records ++ [r], nrecords := v.nrecords + 1,
                                               more := if b = 0x1F then 1 else v.more }
    else .ok (0, v, none)

/-- mbus-protocol.c:3790-4008 `mbus_data_variable_parse` with its message -/
def variableParseE (f : Frame) (v : VarData) : C (Int × VarData × Said) := do
  let v := { v with nrecords := 0, more := 0 }
  if f.dataSize < 12 then .ok (-1, v, some (cs! "Variable header too short."))
  else do
    let h ← varHeader f.data
    varLoopE f.data f.dataSize f.dataSize 12 { v with header := h, records := [] }

/-- mbus-protocol.c:3751-3784 `mbus_data_fixed_parse` with its message -/
def fixedParseE (f : Frame) (x : FixedData) : C (Int × FixedData × Said) :=
  if f.dataSize ≠ 16 then .ok (-1, x, some (cs! "Invalid length for fixed data."))
  else do
    let (r, y) ← fixedParse f x
    .ok (r, y, none)

/-- mbus-protocol.c:4014-4085 `mbus_frame_data_parse` (non-NULL arguments) with its message -/
def frameDataParseE (f : Frame) (x : FrameData) : C (Int × FrameData × Said) :=
  if f.control &&& MASK_DIR = MASK_DIR_S2M then
    if f.ci = 0x70 then do
      let e ← if f.dataSize > 0 then do
          let b ← f.data.rd 0
          .ok (b.toNat : Int)
        else .ok 0
      .ok (0, { x with type := DATA_ERROR, error := e }, none)
    else if f.ci = 0x73 then
      if f.dataSize = 0 then .ok (-1, x, some (cs! "Got zero data_size."))
      else do
        let (r, y, m) ← fixedParseE f x.fix
        .ok (r, { x with type := DATA_FIXED, fix := y }, m)
    else if f.ci = 0x72 then
      if f.dataSize = 0 then .ok (-1, x, some (cs! "Got zero data_size."))
      else do
        let (r, y, m) ← variableParseE f x.var
        .ok (r, { x with type := DATA_VARIABLE, var := y }, m)
    else .ok (-1, x, some (cs! "Unknown control information 0x" ++ fmtHex2L f.ci))
  else .ok (-1, x, some (cs! "Wrong direction in frame (master to slave)"))

/-- mbus-protocol.c:5183-5224 `mbus_frame_get_secondary_address(frame)` (non-NULL) with its message -/
def getSecondaryAddressE (f : Frame) : C (Option (List Byte) × Said) :=
  if f.ci ≠ 0x72 then
    .ok (none, some (cs! "Non-variable data response (can't get secondary address from response)."))
  else do
    let (r, x, m) ← frameDataParseE f FrameData.new
    if r = -1 then .ok (none, m)
    else do
      let id ← bcdDecodeHex x.var.header.idBcd.bytes 4
      let m0 ← x.var.header.manufacturer.rd 0
      let m1 ← x.var.header.manufacturer.rd 1
      .ok (some (padZero 8 (hexDigits id.toNat) ++ fmtHex2 m0 ++ fmtHex2 m1 ++ fmtHex2 x.var.header.version ++
        fmtHex2 x.var.header.medium), m)

/-- mbus-protocol.c:5229-5243 `mbus_frame_select_secondary_pack` (non-NULL arguments): its message; the rest of the function stores none.
(`__PRETTY_FUNCTION__` is the name of the function) -/
def selectPackE (f : Frame) (s : List Byte) : C (Int × Frame × Said) :=
  if isSecondaryAddress s = false then .ok (-1, f, some (cs! "mbus_frame_select_secondary_pack: address is invalid."))
  else do
    let (r, f) ← selectPack f s
    .ok (r, f, none)

/-! ### TCP transport -/

set_option linter.unusedVariables false in
/-- mbus-tcp.c:204-255: the loop and the tail of `mbus_tcp_recv_frame`; `said` is what was stored so far.  The exit at line 206 stores
nothing. -/
def tcpLoopE (es : List Ev) (f : Frame) (buff : List Byte) (len m : Nat) (said : Said) : C (RecvOut × Said) :=
  if len + (m + 1) > PACKET_BUFF_SIZE then .ok (⟨RECV_ERROR, f, es, none⟩, said)
  else
    match h : readEv (m + 1) es with
    | (none, es') => .ok (⟨RECV_TIMEOUT, f, es', none⟩, some (cs! "M-Bus tcp transport layer response timeout has been reached."))
    | (some .eintr, es') => tcpLoopE es' f buff len m said
    | (some .eagain, es') => .ok (⟨RECV_TIMEOUT, f, es', none⟩, some (cs! "M-Bus tcp transport layer response timeout has been reached."))
    | (some .err, es') => .ok (⟨RECV_ERROR, f, es', none⟩, some (cs! "M-Bus tcp transport layer failed to read data."))
    | (some (.data bs), es') =>
      if bs.length = 0 then .ok (⟨RECV_RESET, f, es', none⟩, some (cs! "M-Bus tcp transport layer connection closed by remote host."))
      else
        match store buff len bs with
        | .error e => .error e
        | .ok buff =>
          let len := len + bs.length
          match mbusParseE f buff len with
          | .error e => .error e
          | .ok (remaining, f, t) =>
            if remaining > 0 then tcpLoopE es' f buff len (remaining.toNat - 1) (t <|> said)
            else if remaining < 0 then
              .ok (⟨RECV_INVALID, f, es', some (buff.take len)⟩, some (cs! "M-Bus layer failed to parse data."))
            else .ok (⟨RECV_OK, f, es', some (buff.take len)⟩, t <|> said)
termination_by evWeight es
decreasing_by
  · exact readEv_weight _ _ _ _ h
  · exact readEv_weight _ _ _ _ h

/-- mbus-tcp.c:190-256 `mbus_tcp_recv_frame` (non-NULL arguments) with its message -/
def tcpRecvE (es : List Ev) (f : Frame) : C (RecvOut × Said) := tcpLoopE es f (List.replicate PACKET_BUFF_SIZE 0) 0 0 none

set_option linter.unusedVariables false in
/-- mbus-serial.c:316-355: the loop of `mbus_serial_recv_frame`; only `mbus_parse` stores a message. -/
def serialLoopE (es : List Ev) (f : Frame) (buff : List Byte) (len m timeouts : Nat) (said : Said) : C (RecvOut × Said) :=
  if len + (m + 1) > PACKET_BUFF_SIZE then .ok (⟨RECV_ERROR, f, es, none⟩, said)
  else
    match h : readEv (m + 1) es with
    | (none, es') =>
      if 3 ≤ timeouts + 1 then .ok (serialTail f es' buff len (m + 1), said)
      else
        match mbusParseE f buff len with
        | .error e => .error e
        | .ok (remaining, f, t) =>
          if remaining > 0 then serialLoopE es' f buff len (remaining.toNat - 1) (timeouts + 1) (t <|> said)
          else .ok (serialTail f es' buff len remaining, t <|> said)
    | (some (.data bs), es') =>
      let timeouts := if bs.length = 0 then timeouts + 1 else timeouts
      if bs.length = 0 ∧ 3 ≤ timeouts then .ok (serialTail f es' buff len (m + 1), said)
      else
        match store buff len bs with
        | .error e => .error e
        | .ok buff =>
          let len := len + bs.length
          match mbusParseE f buff len with
          | .error e => .error e
          | .ok (remaining, f, t) =>
            if remaining > 0 then serialLoopE es' f buff len (remaining.toNat - 1) timeouts (t <|> said)
            else .ok (serialTail f es' buff len remaining, t <|> said)
    | (some _, es') => .ok (⟨RECV_ERROR, f, es', none⟩, said)
termination_by evWeight es + (3 - timeouts)
decreasing_by
  · have : es' = es := by
      cases es with
      | nil => simp [readEv] at h; exact h
      | cons a es => cases a <;> simp [readEv] at h
    subst this; omega
  · have := readEv_weight _ _ _ _ h; split <;> omega

/-- mbus-serial.c:287-382 `mbus_serial_recv_frame` (non-NULL arguments) with its message -/
def serialRecvE (tty : Bool) (es : List Ev) (f : Frame) : C (RecvOut × Said) :=
  if tty then serialLoopE es f (List.replicate PACKET_BUFF_SIZE 0) 0 0 0 none else .ok (⟨RECV_ERROR, f, es, none⟩, none)

/-- mbus-tcp.c:150-185 `mbus_tcp_send_frame` with its message: local text of at most 127 characters -/
def tcpSendE (junk : Nat → Byte) (wret : Nat → Int) (f : Frame) : C (Int × Frame × Option (List Byte) × Said) := do
  let (len, f, buff) ← framePack f ((List.range PACKET_BUFF_SIZE).map junk) PACKET_BUFF_SIZE
  if len = -1 then .ok (-1, f, none, some (cs! "mbus_tcp_send_frame: mbus_frame_pack failed\n"))
  else if len < 0 then .error (.oobRead PACKET_BUFF_SIZE PACKET_BUFF_SIZE)
  else if wret len.toNat = len then .ok (0, f, some (buff.take len.toNat), none)
  else .ok (-1, f, some (buff.take len.toNat),
    some ((cs! "mbus_tcp_send_frame: Failed to write frame to socket (ret = " ++ fmtInt (wret len.toNat) ++ cs! ")\n").take 127))

/-- mbus-tcp.c:36-100 `mbus_tcp_connect` with its message: `why` is the text `gai_strerror(status)`; the message is first made in a local
array of 128 characters. -/
def tcpConnectE (h : Hnd) (host : List Byte) (port : Nat) (gai : Bool) (why : List Byte) (rs : List (Option (Int × Bool))) (p : Proc) :
    (Int × Hnd × Proc) × Said :=
  if gai then
    let (ok, fd, p) := connectLoop rs h.fd p
    if ok then ((0, { h with fd := fd }, p), none)
    else ((-1, { h with fd := fd }, p),
      some ((cs! "mbus_tcp_connect: Failed to establish connection to " ++ host ++ cs! ":" ++ portText port).take 127))
  else ((-1, h, p), some ((cs! "mbus_tcp_connect: getaddrinfo: " ++ why).take 127))

/-! ### XML -/

/-- mbus-protocol.c:5028-5066 with the message -/
def chainXmlE (junk : Nat → Nat → Byte) : List Telegram → FrameData → (freed : Bool) → (cnt frameCnt : Int) → XBuf → C (XmlOut × Said)
  | [], _, _, _, _, b => do
      let b ← b.put (cs! "</MBusData>\n")
      .ok (⟨some b.mem, false, []⟩, none)
  | (f, stamp) :: ts, x, freed, cnt, frameCnt, b => do
      let (rc, x, _) ← frameDataParseE f x
      if rc = -1 then .ok (⟨none, true, x.var.records⟩, some (cs! "M-bus variable data parse error."))
      else
        let freed := freed && decide (x.type ≠ DATA_VARIABLE)
        if freed then .error .useAfterFree
        else do
          let (b, cnt) ← recordsXml junk frameCnt (x.var.records.map (·, stamp)) cnt b
          let freed := decide (x.var.records ≠ [])
          let frameCnt ← int32 (frameCnt + 1)
          chainXmlE junk ts { x with var := { x.var with records := [] } } freed cnt frameCnt b

/-- mbus-protocol.c:4931-5073 `mbus_frame_xml(frame)` with its message, which replaces the one of `mbus_frame_data_parse`.  (A call of
`mbus_frame_data_parse` that succeeds stores none: `C119_data_parse`.) -/
def frameXmlE (junk0 : Nat → Byte) (junk : Nat → Nat → Byte) (t : Telegram) (ts : List Telegram) : C (XmlOut × Said) := do
  let (rc, x, _) ← frameDataParseE t.1 FrameData.new
  if rc = -1 then .ok (⟨none, false, x.var.records⟩, some (cs! "M-bus data parse error."))
  else if x.type = DATA_ERROR then do
    let m ← errorXml junk0 x.error
    .ok (⟨some m, false, []⟩, none)
  else if x.type = DATA_FIXED then do
    let m ← fixedXml junk0 x.fix
    .ok (⟨some m, false, []⟩, none)
  else if x.type = DATA_VARIABLE then do
    let b : XBuf := ⟨malloc (scratch junk0 3) 8192, 0⟩
    let frameCnt : Int := if ts.isEmpty then -1 else 0
    let b ← b.put XML_PI
    let b ← b.put (cs! "<MBusData>\n\n")
    let h ← headerXml junk0 x.var.header
    let b ← b.put h
    let (b, cnt) ← recordsXml junk frameCnt (x.var.records.map (·, t.2)) 0 b
    let freed := decide (x.var.records ≠ [])
    let frameCnt ← int32 (frameCnt + 1)
    chainXmlE junk ts { x with var := { x.var with records := [] } } freed cnt frameCnt b
  else .ok (⟨none, false, []⟩, none)

end Mbus
