import Verif.Model.Statics
/-
The same functions of mbus/mbus-protocol.c as in Model/Statics.lean, but as sequences of single byte accesses to the static arrays, so that the accesses of several threads can be interleaved.
Everything the functions compute from their arguments and local variables is taken in one piece; what is spelled out are the loads from and the stores to the static arrays.
-/
namespace Mbus

/-- A piece of running code: finished, stopped by undefined behaviour, or about to load or store one byte of a static array. -/
inductive Prog (α : Type) : Type where
  | done (a : α)
  | fault (f : Fault)
  | load (b : SBuf) (i : Nat) (k : Byte → Prog α)
  | store (b : SBuf) (i : Nat) (v : Byte) (k : Prog α)

/-- `p; k` -/
def Prog.bind {α β : Type} : Prog α → (α → Prog β) → Prog β
  | .done a, k => k a
  | .fault f, _ => .fault f
  | .load b i g, k => .load b i (fun v => (g v).bind k)
  | .store b i v g, k => .store b i v (g.bind k)

instance : Monad Prog where
  pure := Prog.done
  bind := Prog.bind

/-- computations on local data -/
def pLift {α : Type} : C α → Prog α
  | .ok a => .done a
  | .error f => .fault f

/-- store the bytes `t` from index `i` upwards -/
def pBytes (b : SBuf) : Nat → List Byte → Prog Unit
  | _, [] => .done ()
  | i, v :: t => .store b i v (pBytes b (i + 1) t)

/-- `snprintf(buff, sizeof(buff), ...)`, cf. `Statics.print`: the bytes of the text and the terminator, in ascending order. -/
def pPrint (b : SBuf) (args : List Ptr) (text : List Byte) : Prog Unit :=
  if args.any (fun p => match p with
    | .buf c => decide (c = b)
    | _ => false) then .fault (.oobWrite 0 0)
  else pBytes b 0 (text.take (b.cap - 1) ++ [0])

/-- read a C string, byte by byte: `n` bytes are left of the array at index `i` -/
def pString (b : SBuf) : (n : Nat) → (i : Nat) → Prog (List Byte)
  | 0, _ => .fault (.oobRead b.cap b.cap)
  | n + 1, i => .load b i fun v => if v = 0 then .done [] else (pString b n (i + 1)).bind fun t => .done (v :: t)

/-- read the text behind a pointer, cf. `Statics.read` -/
def pRead : Ptr → Prog (List Byte)
  | .const t => .done t
  | .buf b => pString b b.cap 0
  | .null => .fault .null

/-- load the `n` bytes from index `i` upwards -/
def pLoad (b : SBuf) : (n : Nat) → (i : Nat) → Prog (List Byte)
  | 0, _ => .done []
  | n + 1, i => .load b i fun v => (pLoad b n (i + 1)).bind fun t => .done (v :: t)

/-- store a new content: the text up to its terminator (`live`), and what differs after it -/
def pUpdate (b : SBuf) : (i : Nat) → (live : Bool) → (old new : List Byte) → Prog Unit
  | i, live, o :: old, n :: new =>
    if live = true ∨ o ≠ n then .store b i n (pUpdate b (i + 1) (live && n != 0) old new) else pUpdate b (i + 1) live old new
  | _, _, _, _ => .done ()

/-- `len += snprintf(&buff[len], sizeof(buff) - len, ...)`, cf. `XBuf.put` -/
def pPut (b : SBuf) (len : Nat) (text : List Byte) : Prog Nat :=
  if b.cap < len then .fault (.oobWrite b.cap len)
  else if b.cap - len = 0 then .done (len + text.length)
  else (pBytes b len (text.take (b.cap - len - 1) ++ [0])).bind fun _ => .done (len + text.length)

/-- mbus-protocol.c:1978-2030 `mbus_unit_prefix` -/
def pPrefix (e : Int) : Prog Ptr := do
  pPrint .unitPrefix [] (unitPrefix e)
  .done (.buf .unitPrefix)

/-- cf. `sFormat` -/
def pFormat (b : SBuf) (scaled : Option (List Byte × Int × List Byte)) (plain : List Byte) : Prog Ptr :=
  match scaled with
  | some (head, e, tail) => do
      let p ← pPrefix e
      let t ← pRead p
      pPrint b [p] (head ++ t ++ tail)
      .done (.buf b)
  | none => do
      pPrint b [] plain
      .done (.buf b)

/-- mbus-protocol.c:2088-2408 `mbus_vif_unit_lookup` -/
def pVif (v : Byte) : Prog Ptr := pFormat .vif (vifScaled v) (vifUnitText v)

/-- mbus-protocol.c:3078-3120 `mbus_vib_unit_lookup` -/
def pVib (r : Record) : Prog Ptr := do
  let v0 ← pLift (r.vife.rd 0)
  if r.vif = 0xFB then
    if r.nvife = 0 then .done (.const (cs! "Missing VIF extension")) else pFormat .fb (fbScaled v0) (fbText v0)
  else if r.vif = 0xFD then
    if r.nvife = 0 then .done (.const (cs! "Missing VIF extension")) else pFormat .fd (fdScaled v0) (fdText v0)
  else if r.vif = 0x7C then do
    let c ← pLift (cstr r.customVif.bytes)
    pPrint .vib [] c
    .done (.buf .vib)
  else if r.vif = 0xFC ∧ v0 &&& 0x78 = 0x70 then do
    let p ← pPrefix (((v0 &&& 0x07).toNat : Int) - 6)
    let t ← pRead p
    let c ← pLift (cstr r.customVif.bytes)
    pPrint .vib [p] (t ++ cs! " " ++ c)
    .done (.buf .vib)
  else pVif r.vif

/-- mbus-protocol.c:3419-3432 `mbus_data_record_unit` -/
def pUnit (r : Record) : Prog Ptr := do
  let p ← pVib r
  let t ← pRead p
  pPrint .unit [p] t
  .done (.buf .unit)

/-- mbus-protocol.c:3145-3414 `mbus_data_record_decode`.  Simplified: the array is loaded as a whole, the new content computed, and the bytes up to the terminator and the changed ones after
it stored in ascending order (the C code stores them one by one without loading them). -/
def pDecode (r : Record) : Prog Ptr := do
  let old ← pLoad .decode 768 0
  let m ← pLift (recordDecode old r)
  pUpdate .decode 0 true old m
  .done (.buf .decode)

/-- mbus-protocol.c:3437-3450 `mbus_data_record_value` -/
def pValue (r : Record) : Prog Ptr := do
  let p ← pDecode r
  let t ← pRead p
  pPrint .value [p] t
  .done (.buf .value)

/-- cf. `sPlain` -/
def pPlain (b : SBuf) (text : List Byte) : Prog Ptr := do
  pPrint b [] text
  .done (.buf b)

/-- mbus-protocol.c:896-914 `mbus_decode_manufacturer`: the two bytes go through the array.  (`mbus_data_int_decode` loads the upper one twice; here once.) -/
def pManufacturer (b1 b2 : Byte) : Prog Ptr :=
  .store .manufacturer 0 b1 <| .store .manufacturer 1 b2 <| .load .manufacturer 1 fun y => .load .manufacturer 0 fun x => do
    let t ← pLift (decodeManufacturer x y)
    pBytes .manufacturer 0 (t ++ [0])
    .done (.buf .manufacturer)

/-- mbus-protocol.c:916-1366 `mbus_data_product_name`: `memset` and `strcpy` -/
def pProduct (h : VarHeader) : Prog Ptr := do
  let t ← pLift (productName h)
  pBytes .product 0 (List.replicate 128 0)
  pBytes .product 0 (t ++ [0])
  .done (.buf .product)

/-- mbus-protocol.c:5183-5224 `mbus_frame_get_secondary_address` -/
def pAddress (f : Frame) : Prog Ptr := do
  match ← pLift (getSecondaryAddress f) with
  | none => .done .null
  | some t => do
      pPrint .address [] t
      .done (.buf .address)

/-- mbus-protocol.c:4626-4659 `mbus_data_variable_header_xml`; `e` is the previous content of the local `str_encoded`. -/
def pHeaderXml (e : List Byte) (h : VarHeader) : Prog Ptr := do
  let n ← pPut .headerXml 0 (cs! "    <SlaveInformation>\n")
  let id ← pLift (bcdDecodeHex h.idBcd.bytes 4)
  let n ← pPut .headerXml n (cs! "        <Id>" ++ hexDigits (id % 2 ^ 64).toNat ++ cs! "</Id>\n")
  let m0 ← pLift (h.manufacturer.rd 0)
  let m1 ← pLift (h.manufacturer.rd 1)
  let p ← pManufacturer m0 m1
  let man ← pRead p
  let n ← pPut .headerXml n (cs! "        <Manufacturer>" ++ man ++ cs! "</Manufacturer>\n")
  let n ← pPut .headerXml n (cs! "        <Version>" ++ fmtInt h.version.toNat ++ cs! "</Version>\n")
  let p ← pProduct h
  let t ← pRead p
  let (e, t) ← pLift (encodeInto e t)
  let n ← pPut .headerXml n (cs! "        <ProductName>" ++ t ++ cs! "</ProductName>\n")
  let p ← pPlain .medium (mediumText h.medium)
  let t ← pRead p
  let (_, t) ← pLift (encodeInto e t)
  let n ← pPut .headerXml n (cs! "        <Medium>" ++ t ++ cs! "</Medium>\n")
  let n ← pPut .headerXml n (cs! "        <AccessNumber>" ++ fmtInt h.accessNo.toNat ++ cs! "</AccessNumber>\n")
  let n ← pPut .headerXml n (cs! "        <Status>" ++ fmtHex2 h.status ++ cs! "</Status>\n")
  let s1 ← pLift (h.signature.rd 1)
  let s0 ← pLift (h.signature.rd 0)
  let n ← pPut .headerXml n (cs! "        <Signature>" ++ fmtHex2 s1 ++ fmtHex2 s0 ++ cs! "</Signature>\n")
  let _ ← pPut .headerXml n (cs! "    </SlaveInformation>\n\n")
  .done (.buf .headerXml)

/-- mbus-protocol.c:4676-4686: the opening tag of a record. -/
def pRecordOpen (cnt frameCnt : Int) : Prog Nat :=
  if frameCnt ≥ 0 then
    pPut .recordXml 0 (cs! "    <DataRecord id=\"" ++ fmtInt cnt ++ cs! "\" frame=\"" ++ fmtInt frameCnt ++ cs! "\">\n")
  else pPut .recordXml 0 (cs! "    <DataRecord id=\"" ++ fmtInt cnt ++ cs! "\">\n")

/-- mbus-protocol.c:4708-4714: tariff and device, if the tariff is not negative. -/
def pTariff (n : Nat) (r : Record) : Prog Nat := do
  let ta ← pLift (tariff r)
  if ta ≥ 0 then do
    let n ← pPut .recordXml n (cs! "        <Tariff>" ++ fmtInt ta ++ cs! "</Tariff>\n")
    let d ← pLift (device r)
    pPut .recordXml n (cs! "        <Device>" ++ fmtInt d ++ cs! "</Device>\n")
  else .done n

/-- mbus-protocol.c:4688-4719: function, storage number, tariff, device and unit of a record. -/
def pRecordFields (e : List Byte) (n : Nat) (r : Record) : Prog (Nat × List Byte) :=
  if r.dif = 0x0F then do
    let n ← pPut .recordXml n (cs! "        <Function>Manufacturer specific</Function>\n")
    .done (n, e)
  else if r.dif = 0x1F then do
    let n ← pPut .recordXml n (cs! "        <Function>More records follow</Function>\n")
    .done (n, e)
  else do
    let p ← pPlain .function (recordFunctionText r)
    let t ← pRead p
    let (e, t) ← pLift (encodeInto e t)
    let n ← pPut .recordXml n (cs! "        <Function>" ++ t ++ cs! "</Function>\n")
    let st ← pLift (storageNumber r)
    let n ← pPut .recordXml n (cs! "        <StorageNumber>" ++ fmtInt st ++ cs! "</StorageNumber>\n")
    let n ← pTariff n r
    let p ← pUnit r
    let u ← pRead p
    let (e, t) ← pLift (encodeInto e u)
    let n ← pPut .recordXml n (cs! "        <Unit>" ++ t ++ cs! "</Unit>\n")
    .done (n, e)

/-- mbus-protocol.c:4724-4730: the time stamp. -/
def pStamp (n : Nat) : Option (List Byte) → Prog Nat
  | some ts => pPut .recordXml n (cs! "        <Timestamp>" ++ ts ++ cs! "</Timestamp>\n")
  | none => .done n

/-- mbus-protocol.c:4664-4738 `mbus_data_variable_record_xml`; `e` as for `pHeaderXml`, `stamp` the text of the record's time stamp. -/
def pRecordXml (e : List Byte) (r : Record) (stamp : Option (List Byte)) (cnt frameCnt : Int) : Prog Ptr := do
  let n ← pRecordOpen cnt frameCnt
  let (n, e) ← pRecordFields e n r
  let p ← pValue r
  let v ← pRead p
  let (_, t) ← pLift (encodeInto e v)
  let n ← pPut .recordXml n (cs! "        <Value>" ++ t ++ cs! "</Value>\n")
  let n ← pStamp n stamp
  let _ ← pPut .recordXml n (cs! "    </DataRecord>\n\n")
  .done (.buf .recordXml)

end Mbus
