import Verif.Model.Unit
import Verif.Model.Xml
/-
The functions that dump frames and data on standard output (mbus-protocol.c:4299-4549).  The result contains the text written.
`__PRETTY_FUNCTION__` is the name of the function (C, gcc and clang).  Output errors are not modelled.
-/
namespace Mbus

/-- `for (i = 0; i < n; i++) printf("%.2X ", l[i]);` -/
def hexBytes (l : List Byte) (n : Nat) : C (List Byte) :=
  forN n 0 [] fun i t => do
    let x ← rd l i
    .ok (t ++ fmtHex2 x ++ [32])

/-- mbus-protocol.c:4325-4339: the loop of `mbus_frame_print` over the list of frames; `buf` is `data_buff`. Result: return value,
text, the frames afterwards (packing recomputes their length and checksum fields). -/
def framePrintLoop : List Byte → List Frame → C (Int × List Byte × List Frame)
  | _, [] => .ok (0, [], [])
  | buf, f :: fs => do
    let (len, f', buf) ← framePack f buf 256
    if len = -1 then .ok (-2, [], f' :: fs)
    else do
      let head := cs! "mbus_frame_print: Dumping M-Bus frame [type " ++ fmtInt f'.type ++ cs! ", " ++ fmtInt len ++ cs! " bytes]: "
      let t ← hexBytes buf len.toNat
      let (r, rest, fs') ← framePrintLoop buf fs
      .ok (r, head ++ t ++ cs! "\n" ++ rest, f' :: fs')

/-- mbus-protocol.c:4316-4342 `mbus_frame_print(frame)` for a list of frames; `data_buff` is not initialised. -/
def framePrint (uninit : Buf 256) (fs : List Frame) : C (Int × List Byte × List Frame) :=
  match fs with
  | [] => .ok (-1, [], [])
  | fs => framePrintLoop uninit.bytes fs

/-- mbus-protocol.c:4376-4400 `mbus_data_variable_header_print(header)`, header ≠ NULL: the text (the return value is always -1). -/
def headerPrint (h : VarHeader) : C (List Byte) := do
  let p := cs! "mbus_data_variable_header_print: "
  let id ← bcdDecodeHex h.idBcd.bytes 4
  let m1 ← h.manufacturer.rd 1
  let m0 ← h.manufacturer.rd 0
  let man ← decodeManufacturer m0 m1
  let s1 ← h.signature.rd 1
  let s0 ← h.signature.rd 0
  .ok (p ++ cs! "ID           = " ++ hexDigits (id % 2 ^ 64).toNat ++ cs! "\n" ++
    p ++ cs! "Manufacturer = 0x" ++ fmtHex2 m1 ++ fmtHex2 m0 ++ cs! "\n" ++
    p ++ cs! "Manufacturer = " ++ man ++ cs! "\n" ++
    p ++ cs! "Version      = 0x" ++ fmtHex2 h.version ++ cs! "\n" ++
    p ++ cs! "Medium       = " ++ mediumLookup h.medium ++ cs! " (0x" ++ fmtHex2 h.medium ++ cs! ")\n" ++
    p ++ cs! "Access #     = 0x" ++ fmtHex2 h.accessNo ++ cs! "\n" ++
    p ++ cs! "Status       = 0x" ++ fmtHex2 h.status ++ cs! "\n" ++
    p ++ cs! "Signature    = 0x" ++ fmtHex2 s1 ++ fmtHex2 s0 ++ cs! "\n")

/-- "Yes" or "No" -/
def yesNo (b : Bool) : List Byte := if b then cs! "Yes" else cs! "No"

/-- mbus-protocol.c:4445-4454: the lines for DIFE number `j` -/
def difePrint (j : Nat) (dife : Byte) : List Byte :=
  let n := cs! "DIFE[" ++ decDigits j ++ cs! "]"
  n ++ cs! "               = " ++ fmtHex2 dife ++ cs! "\n" ++
  n ++ cs! ".Extension     = " ++ yesNo (dife &&& 0x80 != 0) ++ cs! "\n" ++
  n ++ cs! ".Device        = " ++ fmtInt ((dife &&& 0x40) >>> 6).toNat ++ cs! "\n" ++
  n ++ cs! ".Tariff        = " ++ fmtInt ((dife &&& 0x30) >>> 4).toNat ++ cs! "\n" ++
  n ++ cs! ".StorageNumber = " ++ fmtHex2 (dife &&& 0x0F) ++ cs! "\n"

/-- mbus-protocol.c:4462-4469: the lines for VIFE number `j` -/
def vifePrint (j : Nat) (vife : Byte) : List Byte :=
  let n := cs! "VIFE[" ++ decDigits j ++ cs! "]"
  n ++ cs! "           = " ++ fmtHex2 vife ++ cs! "\n" ++
  n ++ cs! ".Extension = " ++ yesNo (vife &&& 0x80 != 0) ++ cs! "\n" ++
  n ++ cs! ".Value     = " ++ fmtHex2 (vife &&& 0x7F) ++ cs! "\n"

/-- mbus-protocol.c:4415-4471: the body of the loop of `mbus_data_variable_print`, record number `i` -/
def recordPrint (i : Nat) (r : Record) : C (List Byte) := do
  let t := cs! "Record ID         = " ++ fmtInt i ++ cs! "\n" ++
    cs! "DIF               = " ++ fmtHex2 r.dif ++ cs! "\n" ++
    cs! "DIF.Extension     = " ++ yesNo (r.dif &&& 0x80 != 0) ++ cs! "\n" ++
    cs! "DIF.StorageNumber = " ++ fmtInt ((r.dif &&& 0x40) >>> 6).toNat ++ cs! "\n" ++
    cs! "DIF.Function      = " ++ (if r.dif &&& 0x30 ≠ 0 then cs! "Value during error state" else cs! "Instantaneous value") ++ cs! "\n" ++
    cs! "DIF.Data          = " ++ fmtHex2 (r.dif &&& 0x0F) ++ cs! "\n"
  if r.dif = 0x0F ∨ r.dif = 0x1F then do
    let d ← hexBytes r.data.bytes r.dataLen
    .ok (t ++ cs! "mbus_data_variable_print: VENDOR DATA [size=" ++ decDigits r.dataLen ++ cs! "] = " ++ d ++ cs! "\n" ++
      (if r.dif = 0x1F then cs! "mbus_data_variable_print: More records follow in next telegram\n" else []))
  else do
    let t := t ++ cs! "DATA LENGTH = " ++ decDigits r.dataLen ++ cs! "\n"
    let t ← forN r.ndife 0 t fun j t => do
      let dife ← r.dife.rd j
      .ok (t ++ difePrint j dife)
    let t := t ++ cs! "VIF           = " ++ fmtHex2 r.vif ++ cs! "\n" ++
      cs! "VIF.Extension = " ++ yesNo (r.vif &&& 0x80 != 0) ++ cs! "\n" ++
      cs! "VIF.Value     = " ++ fmtHex2 (r.vif &&& 0x7F) ++ cs! "\n"
    let t ← forN r.nvife 0 t fun j t => do
      let vife ← r.vife.rd j
      .ok (t ++ vifePrint j vife)
    .ok (t ++ cs! "\n")

/-- mbus-protocol.c:4413-4472: the loop of `mbus_data_variable_print` from record number `i` on -/
def recordsPrint : (i : Nat) → List Record → C (List Byte)
  | _, [] => .ok []
  | i, r :: rs => do
    let t ← recordPrint i r
    let ts ← recordsPrint (i + 1) rs
    .ok (t ++ ts)

/-- mbus-protocol.c:4402-4476 `mbus_data_variable_print(data)`, data ≠ NULL: return value and text -/
def variablePrint (v : VarData) : C (Int × List Byte) := do
  let h ← headerPrint v.header
  let t ← recordsPrint 0 v.records
  .ok (-1, h ++ t)

/-- mbus-protocol.c:4478-4516 `mbus_data_fixed_print(data)`, data ≠ NULL: return value and text.  (Status bit 7 clear: BCD.) -/
def fixedPrint (x : FixedData) : C (Int × List Byte) := do
  let p := cs! "mbus_data_fixed_print: "
  let id ← bcdDecodeHex x.idBcd.bytes 4
  let c1 ← fixedCounterText x.status x.cnt1Val.bytes
  let c2 ← fixedCounterText x.status x.cnt2Val.bytes
  .ok (-1, p ++ cs! "ID       = " ++ hexDigits (id % 2 ^ 64).toNat ++ cs! "\n" ++
    p ++ cs! "Access # = 0x" ++ fmtHex2 x.txCnt ++ cs! "\n" ++
    p ++ cs! "Status   = 0x" ++ fmtHex2 x.status ++ cs! "\n" ++
    p ++ cs! "Function = " ++ fixedFunction x.status.toNat ++ cs! "\n" ++
    p ++ cs! "Medium1  = " ++ fixedMedium x ++ cs! "\n" ++
    p ++ cs! "Unit1    = " ++ fixedUnit x.cnt1Type.toNat ++ cs! "\n" ++
    p ++ cs! "Counter1 = " ++ c1 ++ cs! "\n" ++
    p ++ cs! "Medium2  = " ++ fixedMedium x ++ cs! "\n" ++
    p ++ cs! "Unit2    = " ++ fixedUnit x.cnt2Type.toNat ++ cs! "\n" ++
    p ++ cs! "Counter2 = " ++ c2 ++ cs! "\n")

/-- mbus-protocol.c:4543-4549 `mbus_data_error_print(error)`: return value and text -/
def errorPrint (error : Int) : Int × List Byte := (-1, cs! "mbus_data_error_print: Error = " ++ fmtInt error ++ cs! "\n")

/-- mbus-protocol.c:4349-4371 `mbus_frame_data_print(data)`, data ≠ NULL: return value and text -/
def frameDataPrint (x : FrameData) : C (Int × List Byte) :=
  if x.type = DATA_ERROR then .ok (errorPrint x.error)
  else if x.type = DATA_FIXED then fixedPrint x.fix
  else if x.type = DATA_VARIABLE then variablePrint x.var
  else .ok (-1, [])

end Mbus
