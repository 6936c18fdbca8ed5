import Verif.Model.Xml
/-
The functions of Model/Value, Model/Codec and Model/Xml whose output depends on the locale of the host program, with the locale
as a parameter: `snprintf(..., "%f", ...)` prints the decimal point of `LC_NUMERIC` (mbus-protocol.c:3248,
mbus-protocol-aux.c:1457), `iscntrl` classifies by `LC_CTYPE` (mbus-protocol.c:4589).  The definitions repeat those of the three
modules word for word with the parameter passed along; `cLocale_…` (Lemmas/Locale) proves that in the "C" locale they are the
same functions.
Simplifications: those of the three modules; the locale is that of the whole program and stays the same during a call
(no `setlocale` or `uselocale` by another thread); the grouping character is not used by `%f`; infinity and NaN are spelled as in
the "C" locale (glibc).
-/
namespace Mbus

/-- What the library sees of a locale: the text of the decimal point (`localeconv()->decimal_point`) and `iscntrl`
(mbus-protocol.c:3248, 4589; mbus-protocol-aux.c:1457). -/
structure Locale where
  point : List Byte
  cntrl : Byte → Bool

/-- The "C" locale, which every C program starts in (ISO C 7.11.1.1; mbus-protocol.c:3248, 4589). -/
def Locale.c : Locale := ⟨[46], isCntrl⟩

/-- In locale `L`: `%f` (glibc: exact value rounded to six decimals, ties to even). -/
def fmtFIn (L : Locale) : Flt → List Byte
  | .inf neg => (if neg then [45] else []) ++ cs! "inf"
  | .nan neg => (if neg then [45] else []) ++ cs! "nan"
  | .fin neg mag =>
      let n := roundEven (mag * 1000000)
      (if neg then [45] else []) ++ decDigits (n / 1000000) ++ L.point ++ padZero 6 (decDigits (n % 1000000))

/-- In locale `L`: mbus-protocol.c:3145-3415 `mbus_data_record_decode(record)`; `buff` is the content of its static `buff[768]` before
the call, the result the content afterwards (the function returns a pointer to it). -/
def recordDecodeIn (L : Locale) (buff : List Byte) (r : Record) : C (List Byte) := do
  let v0 ← r.vife.rd 0
  let d := r.data.bytes
  let print (t : List Byte) : C (List Byte) := snprintfAt buff 0 768 t
  let printInt (n : Nat) : C (List Byte) := do
    let (_, v) ← intDecode d n
    print (fmtInt v)
  match (r.dif &&& 0x0F).toNat with
  | 0x00 => wr buff 0 0
  | 0x01 => printInt 1
  | 0x02 =>
    if r.vif &&& 0x7F = 0x6C then do
      let t ← tmDecode d 2
      let s ← fmtDate t
      print s
    else printInt 2
  | 0x03 => printInt 3
  | 0x04 =>
    if isDateTime r v0 then do
      let t ← tmDecode d 4
      let s ← fmtDateTime t
      print s
    else printInt 4
  | 0x05 => do
    let f ← floatDecode d
    print (fmtFIn L f)
  | 0x06 =>
    if isDateTime r v0 then do
      let t ← tmDecode d 6
      let s ← fmtDateTime t
      print s
    else do
      let (_, v) ← longLongDecode d 6
      print (fmtInt v)
  | 0x07 => do
    let (_, v) ← longLongDecode d 8
    print (fmtInt v)
  | 0x09 => do
    let s ← bcdText r 1
    print s
  | 0x0A => do
    let s ← bcdText r 2
    print s
  | 0x0B => do
    let s ← bcdText r 3
    print s
  | 0x0C => do
    let s ← bcdText r 4
    print s
  | 0x0D => do
    let b ← rd d 0
    if b ≤ 0xBF then strDecode buff (d.drop 1) (sizePred r.dataLen)
    else binDecode buff (d.drop 1) (sizePred r.dataLen) 768
  | 0x0E =>
    if r.dif &&& 0x30 = 0x30 then do
      let v ← bcdDecodeHex d 6
      print (hexDigits (v % 2 ^ 64).toNat)
    else do
      let v ← bcdDecode d 6
      print (fmtInt v)
  | 0x0F => binDecode buff d r.dataLen 768
  | _ => print (cs! "Unknown DIF (0x" ++ fmtHex2L r.dif ++ cs! ")")

/-- In locale `L`: mbus-protocol.c:3437-3450 `mbus_data_record_value`: the returned C string (own static buff[768]). -/
def recordValueIn (L : Locale) (buff : List Byte) (r : Record) : C (List Byte) := do
  let b ← recordDecodeIn L buff r
  let s ← cstr b
  .ok (snp 768 s)

/-- In locale `L`: mbus-protocol.c:4582-4617, the loop of `mbus_str_xml_encode`; `src` is what is left of the source region. -/
def xmlLoopIn (L : Locale) (maxLen : Nat) : (src : List Byte) → (len : Nat) → List Byte → C (List Byte × Nat)
  | [], len, dst => if len + 6 < maxLen then .error (.oobRead 0 0) else .ok (dst, len)
  | c :: rest, len, dst =>
    if len + 6 < maxLen then
      if c = 0 then .ok (dst, len)
      else if L.cntrl c then do
        let dst ← wr dst len 32
        xmlLoopIn L maxLen rest (len + 1) dst
      else if c = 38 then do
        let dst ← snprintfAt dst len (maxLen - len) (cs! "&amp;")
        xmlLoopIn L maxLen rest (len + 5) dst
      else if c = 60 then do
        let dst ← snprintfAt dst len (maxLen - len) (cs! "&lt;")
        xmlLoopIn L maxLen rest (len + 4) dst
      else if c = 62 then do
        let dst ← snprintfAt dst len (maxLen - len) (cs! "&gt;")
        xmlLoopIn L maxLen rest (len + 4) dst
      else if c = 34 then do
        let dst ← snprintfAt dst len (maxLen - len) (cs! "&quot;")
        xmlLoopIn L maxLen rest (len + 6) dst
      else do
        let dst ← wr dst len c
        xmlLoopIn L maxLen rest (len + 1) dst
    else .ok (dst, len)

/-- In locale `L`: mbus-protocol.c:4563-4621 `mbus_str_xml_encode(dst, src, max_len)` (non-NULL arguments, returns 0). -/
def strXmlEncodeIn (L : Locale) (dst src : List Byte) (maxLen : Nat) : C (List Byte) := do
  let (dst, len) ← xmlLoopIn L maxLen src 0 dst
  wr dst len 0

/-- In locale `L`: `mbus_str_xml_encode(str_encoded, s, sizeof(str_encoded))` and the C string left in `str_encoded` (the old content of the
array is `e`). -/
def encodeIntoIn (L : Locale) (e : List Byte) (s : List Byte) : C (List Byte × List Byte) := do
  let e ← strXmlEncodeIn L e (s ++ [0]) e.length
  let t ← cstr e
  .ok (e, t)

/-- In locale `L`: mbus-protocol.c:4626-4659 `mbus_data_variable_header_xml(header)`: the returned C string. -/
def headerXmlIn (L : Locale) (junk : Nat → Byte) (h : VarHeader) : C (List Byte) := do
  let b : XBuf := ⟨malloc (scratch junk 0) 8192, 0⟩
  let e := malloc (scratch junk 1) 768
  let b ← b.put (cs! "    <SlaveInformation>\n")
  let id ← bcdDecodeHex h.idBcd.bytes 4
  let b ← b.put (cs! "        <Id>" ++ hexDigits (id % 2 ^ 64).toNat ++ cs! "</Id>\n")
  let m0 ← h.manufacturer.rd 0
  let m1 ← h.manufacturer.rd 1
  let man ← decodeManufacturer m0 m1
  let b ← b.put (cs! "        <Manufacturer>" ++ man ++ cs! "</Manufacturer>\n")
  let b ← b.put (cs! "        <Version>" ++ fmtInt h.version.toNat ++ cs! "</Version>\n")
  let p ← productName h
  let (e, t) ← encodeIntoIn L e p
  let b ← b.put (cs! "        <ProductName>" ++ t ++ cs! "</ProductName>\n")
  let (_, t) ← encodeIntoIn L e (mediumLookup h.medium)
  let b ← b.put (cs! "        <Medium>" ++ t ++ cs! "</Medium>\n")
  let b ← b.put (cs! "        <AccessNumber>" ++ fmtInt h.accessNo.toNat ++ cs! "</AccessNumber>\n")
  let b ← b.put (cs! "        <Status>" ++ fmtHex2 h.status ++ cs! "</Status>\n")
  let s1 ← h.signature.rd 1
  let s0 ← h.signature.rd 0
  let b ← b.put (cs! "        <Signature>" ++ fmtHex2 s1 ++ fmtHex2 s0 ++ cs! "</Signature>\n")
  let b ← b.put (cs! "    </SlaveInformation>\n\n")
  cstr b.mem

/-- In locale `L`: mbus-protocol.c:4688-4719: function, storage number, tariff, device and unit; result: buffer and `str_encoded`. -/
def recordFieldsXmlIn (L : Locale) (e : List Byte) (b : XBuf) (r : Record) : C (XBuf × List Byte) :=
  if r.dif = 0x0F then do
    let b ← b.put (cs! "        <Function>Manufacturer specific</Function>\n")
    .ok (b, e)
  else if r.dif = 0x1F then do
    let b ← b.put (cs! "        <Function>More records follow</Function>\n")
    .ok (b, e)
  else do
    let (e, t) ← encodeIntoIn L e (recordFunction r)
    let b ← b.put (cs! "        <Function>" ++ t ++ cs! "</Function>\n")
    let st ← storageNumber r
    let b ← b.put (cs! "        <StorageNumber>" ++ fmtInt st ++ cs! "</StorageNumber>\n")
    let b ← tariffXml b r
    let u ← recordUnit r
    let (e, t) ← encodeIntoIn L e u
    let b ← b.put (cs! "        <Unit>" ++ t ++ cs! "</Unit>\n")
    .ok (b, e)

/-- In locale `L`: mbus-protocol.c:4664-4738 `mbus_data_variable_record_xml(record, record_cnt, frame_cnt, header)`: the returned C string;
`stamp` is the text of the record's time stamp. -/
def recordXmlIn (L : Locale) (junk : Nat → Byte) (r : Record) (stamp : Option (List Byte)) (cnt frameCnt : Int) : C (List Byte) := do
  let b ← recordOpenXml ⟨malloc (scratch junk 0) 8192, 0⟩ cnt frameCnt
  let (b, e) ← recordFieldsXmlIn L (malloc (scratch junk 1) 768) b r
  let v ← recordValueIn L (malloc (scratch junk 2) 768) r
  let (_, t) ← encodeIntoIn L e v
  let b ← b.put (cs! "        <Value>" ++ t ++ cs! "</Value>\n")
  let b ← stampXml b stamp
  let b ← b.put (cs! "    </DataRecord>\n\n")
  cstr b.mem

/-- In locale `L`: mbus-protocol.c:4762-4781, 4998-5018, 5036-5056: the record loop; `junk k` is the memory record number `k` finds.
`cnt` is an `int`. -/
def recordsXmlIn (L : Locale) (junk : Nat → Nat → Byte) (frameCnt : Int) : List Stamped → Int → XBuf → C (XBuf × Int)
  | [], cnt, b => .ok (b, cnt)
  | (r, stamp) :: rs, cnt, b => do
      let b := b.grow (scratch (junk cnt.toNat) 3)
      let t ← recordXmlIn L (junk cnt.toNat) r stamp cnt frameCnt
      let b ← b.put t
      let cnt ← int32 (cnt + 1)
      recordsXmlIn L junk frameCnt rs cnt b

/-- In locale `L`: mbus-protocol.c:4743-4790 `mbus_data_variable_xml(data)`: the memory of the returned buffer. `rs` is the record list of
`data` with the texts of the time stamps. -/
def variableXmlIn (L : Locale) (junk0 : Nat → Byte) (junk : Nat → Nat → Byte) (h : VarHeader) (rs : List Stamped) : C (List Byte) := do
  let b : XBuf := ⟨malloc (scratch junk0 3) 8192, 0⟩
  let b ← b.put XML_PI
  let b ← b.put (cs! "<MBusData>\n\n")
  let t ← headerXmlIn L junk0 h
  let b ← b.put t
  let (b, _) ← recordsXmlIn L junk (-1) rs 0 b
  let b ← b.put (cs! "</MBusData>\n")
  .ok b.mem

/-- In locale `L`: mbus-protocol.c:4795-4868 `mbus_data_fixed_xml(data)`: the memory of the returned buffer. -/
def fixedXmlIn (L : Locale) (junk : Nat → Byte) (x : FixedData) : C (List Byte) := do
  let b : XBuf := ⟨malloc (scratch junk 0) 8192, 0⟩
  let e := malloc (scratch junk 1) 256
  let b ← b.put XML_PI
  let b ← b.put (cs! "<MBusData>\n\n")
  let b ← b.put (cs! "    <SlaveInformation>\n")
  let id ← bcdDecodeHex x.idBcd.bytes 4
  let b ← b.put (cs! "        <Id>" ++ hexDigits (id % 2 ^ 64).toNat ++ cs! "</Id>\n")
  let (e, t) ← encodeIntoIn L e (fixedMedium x)
  let b ← b.put (cs! "        <Medium>" ++ t ++ cs! "</Medium>\n")
  let b ← b.put (cs! "        <AccessNumber>" ++ fmtInt x.txCnt.toNat ++ cs! "</AccessNumber>\n")
  let b ← b.put (cs! "        <Status>" ++ fmtHex2 x.status ++ cs! "</Status>\n")
  let b ← b.put (cs! "    </SlaveInformation>\n\n")
  let b ← b.put (cs! "    <DataRecord id=\"0\">\n")
  let (e, t) ← encodeIntoIn L e (fixedFunction x.status.toNat)
  let b ← b.put (cs! "        <Function>" ++ t ++ cs! "</Function>\n")
  let (e, t) ← encodeIntoIn L e (fixedUnit x.cnt1Type.toNat)
  let b ← b.put (cs! "        <Unit>" ++ t ++ cs! "</Unit>\n")
  let v ← fixedCounterText x.status x.cnt1Val.bytes
  let b ← b.put (cs! "        <Value>" ++ v ++ cs! "</Value>\n")
  let b ← b.put (cs! "    </DataRecord>\n\n")
  let b ← b.put (cs! "    <DataRecord id=\"1\">\n")
  let (e, t) ← encodeIntoIn L e (fixedFunction x.status.toNat)
  let b ← b.put (cs! "        <Function>" ++ t ++ cs! "</Function>\n")
  let (_, t) ← encodeIntoIn L e (fixedUnit x.cnt2Type.toNat)
  let b ← b.put (cs! "        <Unit>" ++ t ++ cs! "</Unit>\n")
  let v ← fixedCounterText x.status x.cnt2Val.bytes
  let b ← b.put (cs! "        <Value>" ++ v ++ cs! "</Value>\n")
  let b ← b.put (cs! "    </DataRecord>\n\n")
  let b ← b.put (cs! "</MBusData>\n")
  .ok b.mem

/-- In locale `L`: mbus-protocol.c:4873-4898 `mbus_data_error_xml(error)`: the memory of the returned buffer. -/
def errorXmlIn (L : Locale) (junk : Nat → Byte) (err : Int) : C (List Byte) := do
  let b : XBuf := ⟨malloc (scratch junk 0) 8192, 0⟩
  let e := malloc (scratch junk 1) 256
  let b ← b.put XML_PI
  let b ← b.put (cs! "<MBusData>\n\n")
  let b ← b.put (cs! "    <SlaveInformation>\n")
  let (_, t) ← encodeIntoIn L e (errorLookup err)
  let b ← b.put (cs! "        <Error>" ++ t ++ cs! "</Error>\n")
  let b ← b.put (cs! "    </SlaveInformation>\n\n")
  let b ← b.put (cs! "</MBusData>\n")
  .ok b.mem

/-- In locale `L`: mbus-protocol.c:4903-4925 `mbus_frame_data_xml(data)`: `none` is NULL; `stamps` are the time stamp texts of the records. -/
def frameDataXmlIn (L : Locale) (junk0 : Nat → Byte) (junk : Nat → Nat → Byte) (x : FrameData) (stamps : List (Option (List Byte))) :
    C (Option (List Byte)) := do
  if x.type = DATA_ERROR then do
    let m ← errorXmlIn L junk0 x.error
    .ok (some m)
  else if x.type = DATA_FIXED then do
    let m ← fixedXmlIn L junk0 x.fix
    .ok (some m)
  else if x.type = DATA_VARIABLE then do
    let m ← variableXmlIn L junk0 junk x.var.header (x.var.records.zip stamps)
    .ok (some m)
  else .ok none

/-- In locale `L`: mbus-protocol.c:5028-5066: the loop over the second and later telegrams.  `x` is `frame_data`; its record list holds live
records only: after `mbus_data_record_free` the C code keeps the dangling pointer in `frame_data.data_var.record`, which is
the flag `freed` here.  A telegram parsed as variable data overwrites the pointer (mbus-protocol.c:3823). -/
def chainXmlIn (L : Locale) (junk : Nat → Nat → Byte) : List Telegram → FrameData → (freed : Bool) → (cnt frameCnt : Int) → XBuf → C XmlOut
  | [], _, _, _, _, b => do
      let b ← b.put (cs! "</MBusData>\n")
      .ok ⟨some b.mem, false, []⟩
  | (f, stamp) :: ts, x, freed, cnt, frameCnt, b => do
      let (rc, x) ← frameDataParse f x
      if rc = -1 then .ok ⟨none, true, x.var.records⟩
      else
        let freed := freed && decide (x.type ≠ DATA_VARIABLE)
        if freed then .error .useAfterFree
        else do
          let (b, cnt) ← recordsXmlIn L junk frameCnt (x.var.records.map (·, stamp)) cnt b
          let freed := decide (x.var.records ≠ [])
          let frameCnt ← int32 (frameCnt + 1)
          chainXmlIn L junk ts { x with var := { x.var with records := [] } } freed cnt frameCnt b

/-- In locale `L`: mbus-protocol.c:4931-5073 `mbus_frame_xml(frame)` for a non-empty chain of telegrams. -/
def frameXmlIn (L : Locale) (junk0 : Nat → Byte) (junk : Nat → Nat → Byte) (t : Telegram) (ts : List Telegram) : C XmlOut := do
  let (rc, x) ← frameDataParse t.1 FrameData.new
  if rc = -1 then .ok ⟨none, false, x.var.records⟩
  else if x.type = DATA_ERROR then do
    let m ← errorXmlIn L junk0 x.error
    .ok ⟨some m, false, []⟩
  else if x.type = DATA_FIXED then do
    let m ← fixedXmlIn L junk0 x.fix
    .ok ⟨some m, false, []⟩
  else if x.type = DATA_VARIABLE then do
    let b : XBuf := ⟨malloc (scratch junk0 3) 8192, 0⟩
    let frameCnt : Int := if ts.isEmpty then -1 else 0
    let b ← b.put XML_PI
    let b ← b.put (cs! "<MBusData>\n\n")
    let h ← headerXmlIn L junk0 x.var.header
    let b ← b.put h
    let (b, cnt) ← recordsXmlIn L junk frameCnt (x.var.records.map (·, t.2)) 0 b
    let freed := decide (x.var.records ≠ [])
    let frameCnt ← int32 (frameCnt + 1)
    chainXmlIn L junk ts { x with var := { x.var with records := [] } } freed cnt frameCnt b
  else .ok ⟨none, false, []⟩

/-- In locale `L`: `mbus_str_xml_encode` with a possibly NULL source: NULL leaves the empty string (mbus-protocol.c:4574-4578). -/
def encodeOptIn (L : Locale) (e : List Byte) : Option (List Byte) → C (List Byte × List Byte)
  | some s => encodeIntoIn L e s
  | none => do
      let e ← wr e 0 0
      let t ← cstr e
      .ok (e, t)

/-- In locale `L`: mbus-protocol-aux.c:1455-1463: the value of a normalised record; result: buffer and `str_encoded`.  The text of a string
value is what `value.str_val.value` points to. -/
def nvalueXmlIn (L : Locale) (e : List Byte) (b : XBuf) : NVal → C (XBuf × List Byte)
  | .num x => do
    let b ← b.put (cs! "        <Value>" ++ fmtFIn L x ++ cs! "</Value>\n")
    .ok (b, e)
  | .str s _ => do
    let s ← cstr s
    let (e, t) ← encodeIntoIn L e s
    let b ← b.put (cs! "        <Value>" ++ t ++ cs! "</Value>\n")
    .ok (b, e)

/-- In locale `L`: mbus-protocol-aux.c:1434-1469: the elements inside a normalised record (`none`: NULL, nothing is printed). -/
def nfieldsXmlIn (L : Locale) (e : List Byte) (b : XBuf) : Option NRecord → C (XBuf × List Byte)
  | none => .ok (b, e)
  | some n => do
    let (e, t) ← encodeIntoIn L e n.function
    let b ← b.put (cs! "        <Function>" ++ t ++ cs! "</Function>\n")
    let b ← b.put (cs! "        <StorageNumber>" ++ fmtInt n.storage ++ cs! "</StorageNumber>\n")
    let b ← ntariffXml b n
    let (e, t) ← encodeOptIn L e n.unit
    let b ← b.put (cs! "        <Unit>" ++ t ++ cs! "</Unit>\n")
    let (e, t) ← encodeOptIn L e n.quantity
    let b ← b.put (cs! "        <Quantity>" ++ t ++ cs! "</Quantity>\n")
    nvalueXmlIn L e b n.value

/-- In locale `L`: mbus-protocol-aux.c:1432-1471: one normalised record; result: buffer and `str_encoded`. -/
def nrecordXmlIn (L : Locale) (n : Option NRecord) (i : Nat) (e : List Byte) (b : XBuf) : C (XBuf × List Byte) := do
  let b ← b.put (cs! "    <DataRecord id=\"" ++ decDigits i ++ cs! "\">\n")
  let (b, e) ← nfieldsXmlIn L e b n
  let b ← b.put (cs! "    </DataRecord>\n\n")
  .ok (b, e)

/-- In locale `L`: mbus-protocol-aux.c:1413-1472: the record loop. -/
def nrecordsXmlIn (L : Locale) (junk : Nat → Nat → Byte) : List Record → Nat → List Byte → XBuf → C XBuf
  | [], _, _, b => .ok b
  | r :: rs, i, e, b => do
      let (n, _) ← parseVariableRecord (junk i) r
      let b := b.grow (scratch (junk i) 3)
      let (b, e) ← nrecordXmlIn L n i e b
      nrecordsXmlIn L junk rs (i + 1) e b

/-- In locale `L`: mbus-protocol-aux.c:1390-1480 `mbus_data_variable_xml_normalized(data)`: the memory of the returned buffer. -/
def variableXmlNormalizedIn (L : Locale) (junk0 : Nat → Byte) (junk : Nat → Nat → Byte) (v : VarData) : C (List Byte) := do
  let b : XBuf := ⟨malloc (scratch junk0 3) 8192, 0⟩
  let b ← b.put XML_PI
  let b ← b.put (cs! "<MBusData>\n\n")
  let t ← headerXmlIn L junk0 v.header
  let b ← b.put t
  let b ← nrecordsXmlIn L junk v.records 0 (List.replicate 768 0) b
  let b ← b.put (cs! "</MBusData>\n")
  .ok b.mem

/-- In locale `L`: mbus-protocol-aux.c:1486-1501 `mbus_frame_data_xml_normalized(data)`: `none` is NULL. -/
def frameDataXmlNormalizedIn (L : Locale) (junk0 : Nat → Byte) (junk : Nat → Nat → Byte) (x : FrameData) : C (Option (List Byte)) := do
  if x.type = DATA_FIXED then do
    let m ← fixedXmlIn L junk0 x.fix
    .ok (some m)
  else if x.type = DATA_VARIABLE then do
    let m ← variableXmlNormalizedIn L junk0 junk x.var
    .ok (some m)
  else .ok none

end Mbus
