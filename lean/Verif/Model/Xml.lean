import Verif.Model.Value
/-
Model of the XML output of mbus/mbus-protocol.c (4623-5073) and of `mbus_data_variable_xml_normalized`,
`mbus_frame_data_xml_normalized` (mbus-protocol-aux.c:1390-1501).
Every `len += snprintf(&buff[len], size - len, ...)` is a write into the modelled memory of the buffer; `size - len` is a
`size_t`, so once `len` exceeds `size` it wraps around and the call writes behind the buffer.
Simplifications: NULL arguments, allocation failure, wrap-around of `buff_size *= 2` and the error string are not modelled.
The text of a time stamp (`gmtime`, `strftime` with a limit of 21 bytes) is an input: `none` when `timestamp <= 0`.
Memory that a call finds uninitialised or left over from an earlier call (`malloc`, `realloc`, static and stack buffers) has
arbitrary content, given by functions `junk`.
-/
namespace Mbus

/-- A growing text buffer: the memory behind `buff` (its length is `buff_size` / `sizeof(buff)`) and `len`. -/
structure XBuf where
  mem : List Byte
  len : Nat

/-- `len += snprintf(&buff[len], size - len, "...")` with formatted text `s`. -/
def XBuf.put (b : XBuf) (s : List Byte) : C XBuf :=
  if b.mem.length < b.len then .error (.oobWrite b.mem.length b.len)
  else do
    let m ← snprintfAt b.mem b.len (b.mem.length - b.len) s
    .ok ⟨m, b.len + s.length⟩

/-- mbus-protocol.c:4764-4777, 5000-5014, 5038-5052 and mbus-protocol-aux.c:1417-1430: `if ((buff_size - len) < 1024)` double the
buffer (`size_t` arithmetic: the test fails when `len` already exceeds `buff_size`). -/
def XBuf.grow (junk : Nat → Byte) (b : XBuf) : XBuf :=
  if b.len ≤ b.mem.length ∧ b.mem.length - b.len < 1024 then ⟨b.mem ++ malloc junk b.mem.length, b.len⟩ else b

/-- content of scratch memory number `k` of a call -/
def scratch (junk : Nat → Byte) (k : Nat) : Nat → Byte := fun i => junk (10000 * k + i)

/-- mbus-protocol.h:524 -/
def XML_PI : List Byte := cs! "<?xml version=\"1.0\" encoding=\"ISO-8859-1\"?>\n"

/-- `mbus_str_xml_encode(str_encoded, s, sizeof(str_encoded))` and the C string left in `str_encoded` (the old content of the
array is `e`). -/
def encodeInto (e : List Byte) (s : List Byte) : C (List Byte × List Byte) := do
  let e ← strXmlEncode e (s ++ [0]) e.length
  let t ← cstr e
  .ok (e, t)

/-- mbus-protocol.c:4626-4659 `mbus_data_variable_header_xml(header)`: the returned C string. -/
def headerXml (junk : Nat → Byte) (h : VarHeader) : C (List Byte) := do
  let b : XBuf := ⟨malloc (scratch junk 0) 8192, 0⟩
  let e := malloc (scratch junk 1) 768
  let b ← b.put (cs! "    <SlaveInformation>\n")
  let id ← bcdDecodeHex h.idBcd.bytes 4
  let b ← b.put (cs! "        <Id>" ++ hexDigits (id % 2 ^ 64).toNat ++ cs! "</Id>\n")
  let m0 ← h.manufacturer.rd 0
  let m1 ← h.manufacturer.rd 1
  let man ← decodeManufacturer m0 m1
  let b ← b.put (cs! "        <Manufacturer>" ++ man ++ cs! "</Manufacturer>\n")
  let b ← b.put (cs! "        <Version>" ++ fmtInt h.version.toNat ++ cs! "</Version>\n")
  let p ← productName h
  let (e, t) ← encodeInto e p
  let b ← b.put (cs! "        <ProductName>" ++ t ++ cs! "</ProductName>\n")
  let (_, t) ← encodeInto e (mediumLookup h.medium)
  let b ← b.put (cs! "        <Medium>" ++ t ++ cs! "</Medium>\n")
  let b ← b.put (cs! "        <AccessNumber>" ++ fmtInt h.accessNo.toNat ++ cs! "</AccessNumber>\n")
  let b ← b.put (cs! "        <Status>" ++ fmtHex2 h.status ++ cs! "</Status>\n")
  let s1 ← h.signature.rd 1
  let s0 ← h.signature.rd 0
  let b ← b.put (cs! "        <Signature>" ++ fmtHex2 s1 ++ fmtHex2 s0 ++ cs! "</Signature>\n")
  let b ← b.put (cs! "    </SlaveInformation>\n\n")
  cstr b.mem

/-- mbus-protocol.c:4676-4686: the opening tag of a record. -/
def recordOpenXml (b : XBuf) (cnt frameCnt : Int) : C XBuf :=
  if frameCnt ≥ 0 then
    b.put (cs! "    <DataRecord id=\"" ++ fmtInt cnt ++ cs! "\" frame=\"" ++ fmtInt frameCnt ++ cs! "\">\n")
  else b.put (cs! "    <DataRecord id=\"" ++ fmtInt cnt ++ cs! "\">\n")

/-- mbus-protocol.c:4708-4714: tariff and device, if the tariff is not negative. -/
def tariffXml (b : XBuf) (r : Record) : C XBuf := do
  let ta ← tariff r
  if ta ≥ 0 then do
    let b ← b.put (cs! "        <Tariff>" ++ fmtInt ta ++ cs! "</Tariff>\n")
    let d ← device r
    b.put (cs! "        <Device>" ++ fmtInt d ++ cs! "</Device>\n")
  else .ok b

/-- mbus-protocol.c:4688-4719: function, storage number, tariff, device and unit; result: buffer and `str_encoded`. -/
def recordFieldsXml (e : List Byte) (b : XBuf) (r : Record) : C (XBuf × List Byte) :=
  if r.dif = 0x0F then do
    let b ← b.put (cs! "        <Function>Manufacturer specific</Function>\n")
    .ok (b, e)
  else if r.dif = 0x1F then do
    let b ← b.put (cs! "        <Function>More records follow</Function>\n")
    .ok (b, e)
  else do
    let (e, t) ← encodeInto e (recordFunction r)
    let b ← b.put (cs! "        <Function>" ++ t ++ cs! "</Function>\n")
    let st ← storageNumber r
    let b ← b.put (cs! "        <StorageNumber>" ++ fmtInt st ++ cs! "</StorageNumber>\n")
    let b ← tariffXml b r
    let u ← recordUnit r
    let (e, t) ← encodeInto e u
    let b ← b.put (cs! "        <Unit>" ++ t ++ cs! "</Unit>\n")
    .ok (b, e)

/-- mbus-protocol.c:4724-4730: the time stamp. -/
def stampXml (b : XBuf) : Option (List Byte) → C XBuf
  | some ts => b.put (cs! "        <Timestamp>" ++ ts ++ cs! "</Timestamp>\n")
  | none => .ok b

/-- mbus-protocol.c:4664-4738 `mbus_data_variable_record_xml(record, record_cnt, frame_cnt, header)`: the returned C string;
`stamp` is the text of the record's time stamp. -/
def recordXml (junk : Nat → Byte) (r : Record) (stamp : Option (List Byte)) (cnt frameCnt : Int) : C (List Byte) := do
  let b ← recordOpenXml ⟨malloc (scratch junk 0) 8192, 0⟩ cnt frameCnt
  let (b, e) ← recordFieldsXml (malloc (scratch junk 1) 768) b r
  let v ← recordValue (malloc (scratch junk 2) 768) r
  let (_, t) ← encodeInto e v
  let b ← b.put (cs! "        <Value>" ++ t ++ cs! "</Value>\n")
  let b ← stampXml b stamp
  let b ← b.put (cs! "    </DataRecord>\n\n")
  cstr b.mem

/-- A record with the text of its time stamp. -/
abbrev Stamped := Record × Option (List Byte)

/-- mbus-protocol.c:4762-4781, 4998-5018, 5036-5056: the record loop; `junk k` is the memory record number `k` finds.
`cnt` is an `int`. -/
def recordsXml (junk : Nat → Nat → Byte) (frameCnt : Int) : List Stamped → Int → XBuf → C (XBuf × Int)
  | [], cnt, b => .ok (b, cnt)
  | (r, stamp) :: rs, cnt, b => do
      let b := b.grow (scratch (junk cnt.toNat) 3)
      let t ← recordXml (junk cnt.toNat) r stamp cnt frameCnt
      let b ← b.put t
      let cnt ← int32 (cnt + 1)
      recordsXml junk frameCnt rs cnt b

/-- mbus-protocol.c:4743-4790 `mbus_data_variable_xml(data)`: the memory of the returned buffer. `rs` is the record list of
`data` with the texts of the time stamps. -/
def variableXml (junk0 : Nat → Byte) (junk : Nat → Nat → Byte) (h : VarHeader) (rs : List Stamped) : C (List Byte) := do
  let b : XBuf := ⟨malloc (scratch junk0 3) 8192, 0⟩
  let b ← b.put XML_PI
  let b ← b.put (cs! "<MBusData>\n\n")
  let t ← headerXml junk0 h
  let b ← b.put t
  let (b, _) ← recordsXml junk (-1) rs 0 b
  let b ← b.put (cs! "</MBusData>\n")
  .ok b.mem

/-- mbus-protocol.c:4826-4834, 4846-4854: the value of a counter of the fixed data structure (status bit 7 clear: BCD,
mbus-protocol.h:431-433). -/
def fixedCounterText (status : Byte) (v : List Byte) : C (List Byte) :=
  if status &&& 0x80 = 0 then do
    let x ← bcdDecodeHex v 4
    .ok (hexDigits (x % 2 ^ 64).toNat)
  else do
    let (_, x) ← intDecode v 4
    .ok (fmtInt x)

/-- mbus-protocol.c:4795-4868 `mbus_data_fixed_xml(data)`: the memory of the returned buffer. -/
def fixedXml (junk : Nat → Byte) (x : FixedData) : C (List Byte) := do
  let b : XBuf := ⟨malloc (scratch junk 0) 8192, 0⟩
  let e := malloc (scratch junk 1) 256
  let b ← b.put XML_PI
  let b ← b.put (cs! "<MBusData>\n\n")
  let b ← b.put (cs! "    <SlaveInformation>\n")
  let id ← bcdDecodeHex x.idBcd.bytes 4
  let b ← b.put (cs! "        <Id>" ++ hexDigits (id % 2 ^ 64).toNat ++ cs! "</Id>\n")
  let (e, t) ← encodeInto e (fixedMedium x)
  let b ← b.put (cs! "        <Medium>" ++ t ++ cs! "</Medium>\n")
  let b ← b.put (cs! "        <AccessNumber>" ++ fmtInt x.txCnt.toNat ++ cs! "</AccessNumber>\n")
  let b ← b.put (cs! "        <Status>" ++ fmtHex2 x.status ++ cs! "</Status>\n")
  let b ← b.put (cs! "    </SlaveInformation>\n\n")
  let b ← b.put (cs! "    <DataRecord id=\"0\">\n")
  let (e, t) ← encodeInto e (fixedFunction x.status.toNat)
  let b ← b.put (cs! "        <Function>" ++ t ++ cs! "</Function>\n")
  let (e, t) ← encodeInto e (fixedUnit x.cnt1Type.toNat)
  let b ← b.put (cs! "        <Unit>" ++ t ++ cs! "</Unit>\n")
  let v ← fixedCounterText x.status x.cnt1Val.bytes
  let b ← b.put (cs! "        <Value>" ++ v ++ cs! "</Value>\n")
  let b ← b.put (cs! "    </DataRecord>\n\n")
  let b ← b.put (cs! "    <DataRecord id=\"1\">\n")
  let (e, t) ← encodeInto e (fixedFunction x.status.toNat)
  let b ← b.put (cs! "        <Function>" ++ t ++ cs! "</Function>\n")
  let (_, t) ← encodeInto e (fixedUnit x.cnt2Type.toNat)
  let b ← b.put (cs! "        <Unit>" ++ t ++ cs! "</Unit>\n")
  let v ← fixedCounterText x.status x.cnt2Val.bytes
  let b ← b.put (cs! "        <Value>" ++ v ++ cs! "</Value>\n")
  let b ← b.put (cs! "    </DataRecord>\n\n")
  let b ← b.put (cs! "</MBusData>\n")
  .ok b.mem

/-- mbus-protocol.c:4873-4898 `mbus_data_error_xml(error)`: the memory of the returned buffer. -/
def errorXml (junk : Nat → Byte) (err : Int) : C (List Byte) := do
  let b : XBuf := ⟨malloc (scratch junk 0) 8192, 0⟩
  let e := malloc (scratch junk 1) 256
  let b ← b.put XML_PI
  let b ← b.put (cs! "<MBusData>\n\n")
  let b ← b.put (cs! "    <SlaveInformation>\n")
  let (_, t) ← encodeInto e (errorLookup err)
  let b ← b.put (cs! "        <Error>" ++ t ++ cs! "</Error>\n")
  let b ← b.put (cs! "    </SlaveInformation>\n\n")
  let b ← b.put (cs! "</MBusData>\n")
  .ok b.mem

/-- mbus-protocol.c:4903-4925 `mbus_frame_data_xml(data)`: `none` is NULL; `stamps` are the time stamp texts of the records. -/
def frameDataXml (junk0 : Nat → Byte) (junk : Nat → Nat → Byte) (x : FrameData) (stamps : List (Option (List Byte))) :
    C (Option (List Byte)) := do
  if x.type = DATA_ERROR then do
    let m ← errorXml junk0 x.error
    .ok (some m)
  else if x.type = DATA_FIXED then do
    let m ← fixedXml junk0 x.fix
    .ok (some m)
  else if x.type = DATA_VARIABLE then do
    let m ← variableXml junk0 junk x.var.header (x.var.records.zip stamps)
    .ok (some m)
  else .ok none

/-- A received telegram: the frame and the text of its time stamp (`none`: no time stamp). -/
abbrev Telegram := Frame × Option (List Byte)

/-- Result of `mbus_frame_xml`: the memory of the returned buffer (`none`: NULL), and what the call allocated but neither returned
nor freed: the text buffer, and records. -/
structure XmlOut where
  text : Option (List Byte)
  lostBuffer : Bool
  lostRecords : List Record

/-- mbus-protocol.c:5028-5066: the loop over the second and later telegrams.  `x` is `frame_data`; its record list holds live
records only: after `mbus_data_record_free` the C code keeps the dangling pointer in `frame_data.data_var.record`, which is
the flag `freed` here.  A telegram parsed as variable data overwrites the pointer (mbus-protocol.c:3823). -/
def chainXml (junk : Nat → Nat → Byte) : List Telegram → FrameData → (freed : Bool) → (cnt frameCnt : Int) → XBuf → C XmlOut
  | [], _, _, _, _, b => do
      let b ← b.put (cs! "</MBusData>\n")
      .ok ⟨some b.mem, false, []⟩
  | (f, stamp) :: ts, x, freed, cnt, frameCnt, b => do
      let (rc, x) ← frameDataParse f x
      if rc = -1 then .ok ⟨none, true, x.var.records⟩
      else
        let freed := freed && decide (x.type ≠ DATA_VARIABLE)
        if freed then .error .useAfterFree
        else do
          let (b, cnt) ← recordsXml junk frameCnt (x.var.records.map (·, stamp)) cnt b
          let freed := decide (x.var.records ≠ [])
          let frameCnt ← int32 (frameCnt + 1)
          chainXml junk ts { x with var := { x.var with records := [] } } freed cnt frameCnt b

/-- mbus-protocol.c:4931-5073 `mbus_frame_xml(frame)` for a non-empty chain of telegrams. -/
def frameXml (junk0 : Nat → Byte) (junk : Nat → Nat → Byte) (t : Telegram) (ts : List Telegram) : C XmlOut := do
  let (rc, x) ← frameDataParse t.1 FrameData.new
  if rc = -1 then .ok ⟨none, false, x.var.records⟩
  else if x.type = DATA_ERROR then do
    let m ← errorXml junk0 x.error
    .ok ⟨some m, false, []⟩
  else if x.type = DATA_FIXED then do
    let m ← fixedXml junk0 x.fix
    .ok ⟨some m, false, []⟩
  else if x.type = DATA_VARIABLE then do
    let b : XBuf := ⟨malloc (scratch junk0 3) 8192, 0⟩
    let frameCnt : Int := if ts.isEmpty then -1 else 0
    let b ← b.put XML_PI
    let b ← b.put (cs! "<MBusData>\n\n")
    let h ← headerXml junk0 x.var.header
    let b ← b.put h
    let (b, cnt) ← recordsXml junk frameCnt (x.var.records.map (·, t.2)) 0 b
    let freed := decide (x.var.records ≠ [])
    let frameCnt ← int32 (frameCnt + 1)
    chainXml junk ts { x with var := { x.var with records := [] } } freed cnt frameCnt b
  else .ok ⟨none, false, []⟩

/-! ### normalised values (mbus-protocol-aux.c) -/

/-- `mbus_str_xml_encode` with a possibly NULL source: NULL leaves the empty string (mbus-protocol.c:4574-4578). -/
def encodeOpt (e : List Byte) : Option (List Byte) → C (List Byte × List Byte)
  | some s => encodeInto e s
  | none => do
      let e ← wr e 0 0
      let t ← cstr e
      .ok (e, t)

/-- mbus-protocol-aux.c:1441-1445: tariff and device of a normalised record. -/
def ntariffXml (b : XBuf) (n : NRecord) : C XBuf :=
  if n.tariff ≥ 0 then do
    let b ← b.put (cs! "        <Tariff>" ++ fmtInt n.tariff ++ cs! "</Tariff>\n")
    b.put (cs! "        <Device>" ++ fmtInt n.device ++ cs! "</Device>\n")
  else .ok b

/-- mbus-protocol-aux.c:1455-1463: the value of a normalised record; result: buffer and `str_encoded`.  The text of a string
value is what `value.str_val.value` points to. -/
def nvalueXml (e : List Byte) (b : XBuf) : NVal → C (XBuf × List Byte)
  | .num x => do
    let b ← b.put (cs! "        <Value>" ++ fmtF x ++ cs! "</Value>\n")
    .ok (b, e)
  | .str s _ => do
    let s ← cstr s
    let (e, t) ← encodeInto e s
    let b ← b.put (cs! "        <Value>" ++ t ++ cs! "</Value>\n")
    .ok (b, e)

/-- mbus-protocol-aux.c:1434-1469: the elements inside a normalised record (`none`: NULL, nothing is printed). -/
def nfieldsXml (e : List Byte) (b : XBuf) : Option NRecord → C (XBuf × List Byte)
  | none => .ok (b, e)
  | some n => do
    let (e, t) ← encodeInto e n.function
    let b ← b.put (cs! "        <Function>" ++ t ++ cs! "</Function>\n")
    let b ← b.put (cs! "        <StorageNumber>" ++ fmtInt n.storage ++ cs! "</StorageNumber>\n")
    let b ← ntariffXml b n
    let (e, t) ← encodeOpt e n.unit
    let b ← b.put (cs! "        <Unit>" ++ t ++ cs! "</Unit>\n")
    let (e, t) ← encodeOpt e n.quantity
    let b ← b.put (cs! "        <Quantity>" ++ t ++ cs! "</Quantity>\n")
    nvalueXml e b n.value

/-- mbus-protocol-aux.c:1432-1471: one normalised record; result: buffer and `str_encoded`. -/
def nrecordXml (n : Option NRecord) (i : Nat) (e : List Byte) (b : XBuf) : C (XBuf × List Byte) := do
  let b ← b.put (cs! "    <DataRecord id=\"" ++ decDigits i ++ cs! "\">\n")
  let (b, e) ← nfieldsXml e b n
  let b ← b.put (cs! "    </DataRecord>\n\n")
  .ok (b, e)

/-- mbus-protocol-aux.c:1413-1472: the record loop. -/
def nrecordsXml (junk : Nat → Nat → Byte) : List Record → Nat → List Byte → XBuf → C XBuf
  | [], _, _, b => .ok b
  | r :: rs, i, e, b => do
      let (n, _) ← parseVariableRecord (junk i) r
      let b := b.grow (scratch (junk i) 3)
      let (b, e) ← nrecordXml n i e b
      nrecordsXml junk rs (i + 1) e b

/-- mbus-protocol-aux.c:1390-1480 `mbus_data_variable_xml_normalized(data)`: the memory of the returned buffer. -/
def variableXmlNormalized (junk0 : Nat → Byte) (junk : Nat → Nat → Byte) (v : VarData) : C (List Byte) := do
  let b : XBuf := ⟨malloc (scratch junk0 3) 8192, 0⟩
  let b ← b.put XML_PI
  let b ← b.put (cs! "<MBusData>\n\n")
  let t ← headerXml junk0 v.header
  let b ← b.put t
  let b ← nrecordsXml junk v.records 0 (List.replicate 768 0) b
  let b ← b.put (cs! "</MBusData>\n")
  .ok b.mem

/-- mbus-protocol-aux.c:1486-1501 `mbus_frame_data_xml_normalized(data)`: `none` is NULL. -/
def frameDataXmlNormalized (junk0 : Nat → Byte) (junk : Nat → Nat → Byte) (x : FrameData) : C (Option (List Byte)) := do
  if x.type = DATA_FIXED then do
    let m ← fixedXml junk0 x.fix
    .ok (some m)
  else if x.type = DATA_VARIABLE then do
    let m ← variableXmlNormalized junk0 junk x.var
    .ok (some m)
  else .ok none

end Mbus
