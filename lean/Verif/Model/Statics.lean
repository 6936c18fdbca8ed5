import Verif.Model.Xml
import Verif.Model.Address
/-
Model of the static text buffers of mbus/mbus-protocol.c: the lookup functions return pointers to buffers that later calls overwrite.  The other models of these functions
return texts; here the buffers are memory, nested calls write theirs, and the formatting functions read them.
-/
namespace Mbus

/-- The static arrays of mbus-protocol.c, lines 899, 919, 1402, 1513, 1785, 1981, 2091, 2419, 2511, 2762, 3081, 3148, 3422, 3440, 3530, 3569, 4629, 4667, 5186. -/
inductive SBuf where
  | manufacturer | product | fixedMedium | fixedUnit | medium | unitPrefix | vif | error | fb | fd | vib | decode | unit | value | function | fixedFunction | headerXml | recordXml
  | address
  deriving DecidableEq

/-- their sizes -/
def SBuf.cap : SBuf → Nat
  | .manufacturer => 4
  | .product | .unit | .function | .fixedFunction => 128
  | .decode | .value => 768
  | .headerXml | .recordXml => 8192
  | .address => 32
  | _ => 256

/-- The content of the buffers. -/
abbrev Statics := SBuf → List Byte

/-- Program start. -/
def Statics.zero : Statics := fun b => List.replicate b.cap 0

def Statics.set (s : Statics) (b : SBuf) (m : List Byte) : Statics := fun c => if c = b then m else s c

/-- The pointer a lookup returns: to a string constant, to a buffer, or NULL. -/
inductive Ptr where
  | const (t : List Byte)
  | buf (b : SBuf)
  | null

/-- What a reader finds there now. -/
def Statics.read (s : Statics) : Ptr → C (List Byte)
  | .const t => .ok t
  | .buf b => cstr (s b)
  | .null => .error .null

/-- `snprintf(buff, sizeof(buff), ...)` where the arguments for `%s` are the pointers `args` and `text` is the formatted text.  A source that overlaps the destination is undefined
(C11 7.21.6.5); it is reported as a fault. -/
def Statics.print (s : Statics) (b : SBuf) (args : List Ptr) (text : List Byte) : C Statics :=
  if args.any (fun p => match p with
    | .buf c => decide (c = b)
    | _ => false) then .error (.oobWrite 0 0)
  else do
    let m ← snprintfAt (s b) 0 b.cap text
    .ok (s.set b m)

/-- mbus-protocol.c:1978-2030 `mbus_unit_prefix` -/
def sPrefix (e : Int) (s : Statics) : C (Ptr × Statics) := do
  let s ← s.print .unitPrefix [] (unitPrefix e)
  .ok (.buf .unitPrefix, s)

/-- A lookup that formats either a fixed text, or `head`, `mbus_unit_prefix(e)` and `tail`. -/
def sFormat (b : SBuf) (scaled : Option (List Byte × Int × List Byte)) (plain : List Byte) (s : Statics) : C (Ptr × Statics) :=
  match scaled with
  | some (head, e, tail) => do
      let (p, s) ← sPrefix e s
      let t ← s.read p
      let s ← s.print b [p] (head ++ t ++ tail)
      .ok (.buf b, s)
  | none => do
      let s ← s.print b [] plain
      .ok (.buf b, s)

/-- The branches of mbus-protocol.c:2088-2408 `mbus_vif_unit_lookup` that call `mbus_unit_prefix`, with its argument. -/
def vifScaled (vif : Byte) : Option (List Byte × Int × List Byte) :=
  let k := vif.toNat &&& 0x7F
  let n : Int := ((vif.toNat &&& 0x07 : Nat) : Int)
  let nn : Int := ((vif.toNat &&& 0x03 : Nat) : Int)
  if k ≤ 0x07 then some (cs! "Energy (", n - 3, cs! "Wh)")
  else if k ≤ 0x0F then some (cs! "Energy (", n, cs! "J)")
  else if k ≤ 0x17 then some (cs! "Volume (", n - 6, cs! " m^3)")
  else if k ≤ 0x1F then some (cs! "Mass (", n - 3, cs! "kg)")
  else if k ≤ 0x27 then none
  else if k ≤ 0x2F then some (cs! "Power (", n - 3, cs! "W)")
  else if k ≤ 0x37 then some (cs! "Power (", n, cs! "J/h)")
  else if k ≤ 0x3F then some (cs! "Volume flow (", n - 6, cs! " m^3/h)")
  else if k ≤ 0x47 then some (cs! "Volume flow (", n - 7, cs! " m^3/min)")
  else if k ≤ 0x4F then some (cs! "Volume flow (", n - 9, cs! " m^3/s)")
  else if k ≤ 0x57 then some (cs! "Mass flow (", n - 3, cs! " kg/h)")
  else if k ≤ 0x5B then some (cs! "Flow temperature (", nn - 3, cs! "deg C)")
  else if k ≤ 0x5F then some (cs! "Return temperature (", nn - 3, cs! "deg C)")
  else if k ≤ 0x63 then some (cs! "Temperature Difference (", nn - 3, cs! " deg C)")
  else if k ≤ 0x67 then some (cs! "External temperature (", nn - 3, cs! " deg C)")
  else if k ≤ 0x6B then some (cs! "Pressure (", nn - 3, cs! " bar)")
  else none

/-- The branches of mbus-protocol.c:2508-2757 `mbus_vib_unit_lookup_fb` that call `mbus_unit_prefix`. -/
def fbScaled (v : Byte) : Option (List Byte × Int × List Byte) :=
  let k := v.toNat &&& 0x7F
  let n : Int := ((v.toNat &&& 0x01 : Nat) : Int)
  let nn : Int := ((v.toNat &&& 0x03 : Nat) : Int)
  let nnn : Int := ((v.toNat &&& 0x07 : Nat) : Int)
  if k = 0x10 ∨ k = 0x11 then some (cs! "Volume (", n + 2, cs! "m3)")
  else if k = 0x18 ∨ k = 0x19 then some (cs! "Mass (", n + 2, cs! "t)")
  else if k < 0x58 then none
  else if k ≤ 0x5B then some (cs! "Flow Temperature (", nn - 3, cs! " degree F)")
  else if k ≤ 0x5F then some (cs! "Return Temperature (", nn - 3, cs! " degree F)")
  else if k ≤ 0x63 then some (cs! "Temperature Difference (", nn - 3, cs! " degree F)")
  else if k ≤ 0x67 then some (cs! "External Temperature (", nn - 3, cs! " degree F)")
  else if k ≤ 0x6F then none
  else if k ≤ 0x73 then some (cs! "Cold / Warm Temperature Limit (", nn - 3, cs! " degree F)")
  else if k ≤ 0x77 then some (cs! "Cold / Warm Temperature Limit (", nn - 3, cs! " degree C)")
  else some (cs! "cumul. count max power (", nnn - 3, cs! " W)")

/-- The branches of mbus-protocol.c:2759-3063 `mbus_vib_unit_lookup_fd` that call `mbus_unit_prefix`. -/
def fdScaled (v : Byte) : Option (List Byte × Int × List Byte) :=
  let k := v.toNat &&& 0x7F
  let nn : Int := ((k &&& 0x03 : Nat) : Int)
  let nnnn : Int := ((k &&& 0x0F : Nat) : Int)
  if k ≤ 0x03 then some (cs! "Credit of ", nn - 3, cs! " of the nominal local legal currency units")
  else if k ≤ 0x07 then some (cs! "Debit of ", nn - 3, cs! " of the nominal local legal currency units")
  else if k < 0x40 then none
  else if k ≤ 0x4F then some ([], nnnn - 9, cs! " V")
  else if k ≤ 0x5F then some ([], nnnn - 12, cs! " A")
  else none

/-- mbus-protocol.c:2088-2408 `mbus_vif_unit_lookup` -/
def sVif (v : Byte) (s : Statics) : C (Ptr × Statics) := sFormat .vif (vifScaled v) (vifUnitText v) s

/-- mbus-protocol.c:3078-3120 `mbus_vib_unit_lookup`: returns the buffer of the function it delegates to. -/
def sVib (r : Record) (s : Statics) : C (Ptr × Statics) := do
  let v0 ← r.vife.rd 0
  if r.vif = 0xFB then
    if r.nvife = 0 then .ok (.const (cs! "Missing VIF extension"), s) else sFormat .fb (fbScaled v0) (fbText v0) s
  else if r.vif = 0xFD then
    if r.nvife = 0 then .ok (.const (cs! "Missing VIF extension"), s) else sFormat .fd (fdScaled v0) (fdText v0) s
  else if r.vif = 0x7C then do
    let c ← cstr r.customVif.bytes
    let s ← s.print .vib [] c
    .ok (.buf .vib, s)
  else if r.vif = 0xFC ∧ v0 &&& 0x78 = 0x70 then do
    let (p, s) ← sPrefix (((v0 &&& 0x07).toNat : Int) - 6) s
    let t ← s.read p
    let c ← cstr r.customVif.bytes
    let s ← s.print .vib [p] (t ++ cs! " " ++ c)
    .ok (.buf .vib, s)
  else sVif r.vif s

/-- mbus-protocol.c:3419-3432 `mbus_data_record_unit` -/
def sUnit (r : Record) (s : Statics) : C (Ptr × Statics) := do
  let (p, s) ← sVib r s
  let t ← s.read p
  let s ← s.print .unit [p] t
  .ok (.buf .unit, s)

/-- mbus-protocol.c:3145-3414 `mbus_data_record_decode` (writes into what its buffer held before) -/
def sDecode (r : Record) (s : Statics) : C (Ptr × Statics) := do
  let m ← recordDecode (s .decode) r
  .ok (.buf .decode, s.set .decode m)

/-- mbus-protocol.c:3437-3450 `mbus_data_record_value` -/
def sValue (r : Record) (s : Statics) : C (Ptr × Statics) := do
  let (p, s) ← sDecode r s
  let t ← s.read p
  let s ← s.print .value [p] t
  .ok (.buf .value, s)

/-- A lookup that only prints `text` into its own buffer: `mbus_data_fixed_medium` (1399-1465), `mbus_data_fixed_unit` (1510-1716), `mbus_data_variable_medium_lookup` (1782-1971),
`mbus_data_error_lookup` (2416-2469), `mbus_data_record_function` (3527-3560), `mbus_data_fixed_function` (3566-3576). -/
def sPlain (b : SBuf) (text : List Byte) (s : Statics) : C (Ptr × Statics) := do
  let s ← s.print b [] text
  .ok (.buf b, s)

/-- mbus-protocol.c:896-914 `mbus_decode_manufacturer` (the buffer is also the scratch memory of the decoding) -/
def sManufacturer (b1 b2 : Byte) (s : Statics) : C (Ptr × Statics) := do
  let t ← decodeManufacturer b1 b2
  .ok (.buf .manufacturer, s.set .manufacturer (t ++ [0]))

/-- mbus-protocol.c:916-1366 `mbus_data_product_name`: `memset` and `strcpy` -/
def sProduct (h : VarHeader) (s : Statics) : C (Ptr × Statics) := do
  let t ← productName h
  .ok (.buf .product, s.set .product (t ++ List.replicate (128 - t.length) 0))

/-- mbus-protocol.c:5183-5224 `mbus_frame_get_secondary_address` -/
def sAddress (f : Frame) (s : Statics) : C (Ptr × Statics) := do
  match ← getSecondaryAddress f with
  | none => .ok (.null, s)
  | some t => do
      let s ← s.print .address [] t
      .ok (.buf .address, s)

/-- mbus-protocol.c:4626-4659 `mbus_data_variable_header_xml`; `e` is the previous content of `str_encoded`.  The nested lookups do not touch the buffer of this function
(`C112_stateless` and the frame lemma behind `C112_lifetime`), so its memory is threaded separately and stored at the end. -/
def sHeaderXml (e : List Byte) (h : VarHeader) (s : Statics) : C (Ptr × Statics) := do
  let b : XBuf := ⟨s .headerXml, 0⟩
  let b ← b.put (cs! "    <SlaveInformation>\n")
  let id ← bcdDecodeHex h.idBcd.bytes 4
  let b ← b.put (cs! "        <Id>" ++ hexDigits (id % 2 ^ 64).toNat ++ cs! "</Id>\n")
  let m0 ← h.manufacturer.rd 0
  let m1 ← h.manufacturer.rd 1
  let (p, s) ← sManufacturer m0 m1 s
  let man ← s.read p
  let b ← b.put (cs! "        <Manufacturer>" ++ man ++ cs! "</Manufacturer>\n")
  let b ← b.put (cs! "        <Version>" ++ fmtInt h.version.toNat ++ cs! "</Version>\n")
  let (p, s) ← sProduct h s
  let t ← s.read p
  let (e, t) ← encodeInto e t
  let b ← b.put (cs! "        <ProductName>" ++ t ++ cs! "</ProductName>\n")
  let (p, s) ← sPlain .medium (mediumText h.medium) s
  let t ← s.read p
  let (_, t) ← encodeInto e t
  let b ← b.put (cs! "        <Medium>" ++ t ++ cs! "</Medium>\n")
  let b ← b.put (cs! "        <AccessNumber>" ++ fmtInt h.accessNo.toNat ++ cs! "</AccessNumber>\n")
  let b ← b.put (cs! "        <Status>" ++ fmtHex2 h.status ++ cs! "</Status>\n")
  let s1 ← h.signature.rd 1
  let s0 ← h.signature.rd 0
  let b ← b.put (cs! "        <Signature>" ++ fmtHex2 s1 ++ fmtHex2 s0 ++ cs! "</Signature>\n")
  let b ← b.put (cs! "    </SlaveInformation>\n\n")
  .ok (.buf .headerXml, s.set .headerXml b.mem)

/-- mbus-protocol.c:4688-4719: function, storage number, tariff, device and unit of a record. -/
def sRecordFields (e : List Byte) (b : XBuf) (r : Record) (s : Statics) : C (XBuf × List Byte × Statics) :=
  if r.dif = 0x0F then do
    let b ← b.put (cs! "        <Function>Manufacturer specific</Function>\n")
    .ok (b, e, s)
  else if r.dif = 0x1F then do
    let b ← b.put (cs! "        <Function>More records follow</Function>\n")
    .ok (b, e, s)
  else do
    let (p, s) ← sPlain .function (recordFunctionText r) s
    let t ← s.read p
    let (e, t) ← encodeInto e t
    let b ← b.put (cs! "        <Function>" ++ t ++ cs! "</Function>\n")
    let st ← storageNumber r
    let b ← b.put (cs! "        <StorageNumber>" ++ fmtInt st ++ cs! "</StorageNumber>\n")
    let b ← tariffXml b r
    let (p, s) ← sUnit r s
    let u ← s.read p
    let (e, t) ← encodeInto e u
    let b ← b.put (cs! "        <Unit>" ++ t ++ cs! "</Unit>\n")
    .ok (b, e, s)

/-- mbus-protocol.c:4664-4738 `mbus_data_variable_record_xml`; `e` as for `sHeaderXml`, `stamp` the text of the record's time stamp. -/
def sRecordXml (e : List Byte) (r : Record) (stamp : Option (List Byte)) (cnt frameCnt : Int) (s : Statics) : C (Ptr × Statics) := do
  let b ← recordOpenXml ⟨s .recordXml, 0⟩ cnt frameCnt
  let (b, e, s) ← sRecordFields e b r s
  let (p, s) ← sValue r s
  let v ← s.read p
  let (_, t) ← encodeInto e v
  let b ← b.put (cs! "        <Value>" ++ t ++ cs! "</Value>\n")
  let b ← stampXml b stamp
  let b ← b.put (cs! "    </DataRecord>\n\n")
  .ok (.buf .recordXml, s.set .recordXml b.mem)

end Mbus
