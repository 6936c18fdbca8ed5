import Verif.Model.Double
import Verif.Model.Record
import Verif.Model.Labels
import Verif.Model.Products
import Verif.Model.VifTable
/-
Model of the label lookups of mbus/mbus-protocol.c (916-1366, 1399-3120, 3419-3432, 3527-3576) and of the unit
normalisation of mbus/mbus-protocol-aux.c (786-826, 1044-1171).
Simplifications: NULL arguments are not modelled; `double` arithmetic is that of Model/Double.lean; diagnostics on
stderr are left out.  Every lookup is split in the text it formats (`...Text`) and the content of its static buffer
after `snprintf` (truncation to size-1 bytes).
-/
namespace Mbus

/-- `snprintf(buff, cap, ...)` into a static buffer of `cap ≥ 1` bytes: the resulting C string. -/
def snp (cap : Nat) (text : List Byte) : List Byte := text.take (cap - 1)

/-- `strcpy` into a buffer of `cap` bytes: the resulting C string, or a write behind the buffer. -/
def strcpyS (cap : Nat) (text : List Byte) : C (List Byte) :=
  if text.length < cap then .ok text else .error (.oobWrite cap cap)

/-- The C string stored in a byte array (`%s`, `strdup`): the bytes before the first NUL; reading runs off the array if
there is none. -/
def cstr (l : List Byte) : C (List Byte) :=
  if 0 ∈ l then .ok (l.takeWhile (· ≠ 0)) else .error (.oobRead l.length l.length)

/-- `switch (v) { case k: label ... }` -/
def caseOf (v : Nat) (t : List (Nat × List Byte)) : Option (List Byte) := t.lookup v

/-- `%.2x` / `%.2X` of an `int` (converted to `unsigned`, 32 bit). -/
def fmtHexInt (z : Int) : List Byte := padZero 2 (hexDigits (z % 4294967296).toNat)

/-! ### fixed-length data -/

/-- mbus-protocol.c:1399-1465 `mbus_data_fixed_medium` (text) -/
def fixedMediumText (x : FixedData) : List Byte :=
  (caseOf (((x.cnt1Type &&& 0xC0) >>> 6) ||| ((x.cnt2Type &&& 0xC0) >>> 4)).toNat fixedMediumCases).getD (cs! "unknown")
/-- mbus-protocol.c:1399-1465 `mbus_data_fixed_medium`, static buff[256] -/
def fixedMedium (x : FixedData) : List Byte := snp 256 (fixedMediumText x)

/-- mbus-protocol.c:1510-1716 `mbus_data_fixed_unit(int)` (text); `& 0x3F` of an int is its residue modulo 64. -/
def fixedUnitText (u : Int) : List Byte := (caseOf (u % 64).toNat fixedUnitCases).getD (cs! "unknown")
/-- mbus-protocol.c:1510-1716 `mbus_data_fixed_unit`, static buff[256] -/
def fixedUnit (u : Int) : List Byte := snp 256 (fixedUnitText u)

/-- mbus-protocol.c:3566-3576 `mbus_data_fixed_function(int status)`: bit 0x40 set means "stored value"
(mbus-protocol.h:434-436); static buff[128]. -/
def fixedFunctionText (status : Int) : List Byte :=
  if (status % 256).toNat &&& 0x40 = 0x40 then cs! "Stored value" else cs! "Actual value"
def fixedFunction (status : Int) : List Byte := snp 128 (fixedFunctionText status)

/-! ### variable-length data -/

/-- mbus-protocol.c:1782-1971 `mbus_data_variable_medium_lookup` (text) -/
def mediumText (m : Byte) : List Byte :=
  (caseOf m.toNat mediumCases).getD (cs! "Unknown medium (0x" ++ fmtHex2L m ++ cs! ")")
/-- mbus-protocol.c:1782-1971 `mbus_data_variable_medium_lookup`, static buff[256] -/
def mediumLookup (m : Byte) : List Byte := snp 256 (mediumText m)

/-- mbus-protocol.c:2416-2469 `mbus_data_error_lookup(int)` (text) -/
def errorText (e : Int) : List Byte :=
  if e < 0 then cs! "Unknown error (0x" ++ fmtHexInt e ++ cs! ")"
  else (caseOf e.toNat errorCases).getD (cs! "Unknown error (0x" ++ fmtHexInt e ++ cs! ")")
/-- mbus-protocol.c:2416-2469 `mbus_data_error_lookup`, static buff[256] -/
def errorLookup (e : Int) : List Byte := snp 256 (errorText e)

/-- mbus-protocol.c:1978-2030 `mbus_unit_prefix(int exp)`, static buff[256] (the longest text has 14 bytes) -/
def unitPrefix (e : Int) : List Byte :=
  if e = 0 then [] else if e = -3 then cs! "m" else if e = -6 then cs! "my" else if e = 1 then cs! "10 "
  else if e = 2 then cs! "100 " else if e = 3 then cs! "k" else if e = 4 then cs! "10 k"
  else if e = 5 then cs! "100 k" else if e = 6 then cs! "M" else if e = 9 then cs! "G"
  else cs! "1e" ++ fmtInt e ++ cs! " "

/-- mbus-protocol.c:2471-2486 `mbus_unit_duration_nn` -/
def durationNn (nn : Nat) : List Byte :=
  if nn = 0 then cs! "second(s)" else if nn = 1 then cs! "minute(s)" else if nn = 2 then cs! "hour(s)"
  else if nn = 3 then cs! "day(s)" else cs! "error: out-of-range"
/-- mbus-protocol.c:2488-2506 `mbus_unit_duration_pp` -/
def durationPp (pp : Nat) : List Byte :=
  if pp = 0 then cs! "hour(s)" else if pp = 1 then cs! "day(s)" else if pp = 2 then cs! "month(s)"
  else if pp = 3 then cs! "year(s)" else cs! "error: out-of-range"

/-- mbus-protocol.c:2088-2408 `mbus_vif_unit_lookup` (text).  Blocks of consecutive `case` labels are written as ranges of
the masked VIF `k`; `case 0xFF` can never be taken after the mask. -/
def vifUnitText (vif : Byte) : List Byte :=
  let k := vif.toNat &&& 0x7F
  let n : Int := ((vif.toNat &&& 0x07 : Nat) : Int)
  let nn : Int := ((vif.toNat &&& 0x03 : Nat) : Int)
  if k ≤ 0x07 then cs! "Energy (" ++ unitPrefix (n - 3) ++ cs! "Wh)"
  else if k ≤ 0x0F then cs! "Energy (" ++ unitPrefix n ++ cs! "J)"
  else if k ≤ 0x17 then cs! "Volume (" ++ unitPrefix (n - 6) ++ cs! " m^3)"
  else if k ≤ 0x1F then cs! "Mass (" ++ unitPrefix (n - 3) ++ cs! "kg)"
  else if k ≤ 0x27 then
    (if vif.toNat &&& 0x7C = 0x20 then cs! "On time " else cs! "Operating time ") ++
    (if nn = 0 then cs! "(seconds)" else if nn = 1 then cs! "(minutes)" else if nn = 2 then cs! "(hours)" else cs! "(days)")
  else if k ≤ 0x2F then cs! "Power (" ++ unitPrefix (n - 3) ++ cs! "W)"
  else if k ≤ 0x37 then cs! "Power (" ++ unitPrefix n ++ cs! "J/h)"
  else if k ≤ 0x3F then cs! "Volume flow (" ++ unitPrefix (n - 6) ++ cs! " m^3/h)"
  else if k ≤ 0x47 then cs! "Volume flow (" ++ unitPrefix (n - 7) ++ cs! " m^3/min)"
  else if k ≤ 0x4F then cs! "Volume flow (" ++ unitPrefix (n - 9) ++ cs! " m^3/s)"
  else if k ≤ 0x57 then cs! "Mass flow (" ++ unitPrefix (n - 3) ++ cs! " kg/h)"
  else if k ≤ 0x5B then cs! "Flow temperature (" ++ unitPrefix (nn - 3) ++ cs! "deg C)"
  else if k ≤ 0x5F then cs! "Return temperature (" ++ unitPrefix (nn - 3) ++ cs! "deg C)"
  else if k ≤ 0x63 then cs! "Temperature Difference (" ++ unitPrefix (nn - 3) ++ cs! " deg C)"
  else if k ≤ 0x67 then cs! "External temperature (" ++ unitPrefix (nn - 3) ++ cs! " deg C)"
  else if k ≤ 0x6B then cs! "Pressure (" ++ unitPrefix (nn - 3) ++ cs! " bar)"
  else if k ≤ 0x6D then (if vif.toNat &&& 0x01 ≠ 0 then cs! "Time Point (time & date)" else cs! "Time Point (date)")
  else if k = 0x6E then cs! "Units for H.C.A."
  else if k = 0x6F then cs! "Reserved"
  else if k ≤ 0x77 then
    (if vif.toNat &&& 0x7C = 0x70 then cs! "Averaging Duration " else cs! "Actuality Duration ") ++
    (if nn = 0 then cs! "(seconds)" else if nn = 1 then cs! "(minutes)" else if nn = 2 then cs! "(hours)" else cs! "(days)")
  else if k = 0x7C then cs! "Custom VIF"
  else if k = 0x78 then cs! "Fabrication number"
  else if k = 0x7A then cs! "Bus Address"
  else if k = 0x7F then cs! "Manufacturer specific"
  else cs! "Unknown (VIF=0x" ++ fmtHex2 vif ++ cs! ")"
/-- mbus-protocol.c:2088-2408 `mbus_vif_unit_lookup`, static buff[256] -/
def vifUnitLookup (vif : Byte) : List Byte := snp 256 (vifUnitText vif)

/-- mbus-protocol.c:2508-2757 `mbus_vib_unit_lookup_fb` (text), `v` is `vib->vife[0]`. -/
def fbText (v : Byte) : List Byte :=
  let k := v.toNat &&& 0x7F
  let n := v.toNat &&& 0x01
  let nn : Int := ((v.toNat &&& 0x03 : Nat) : Int)
  let nnn : Int := ((v.toNat &&& 0x07 : Nat) : Int)
  let tenth := if n = 0 then cs! "0.1 " else []
  let reserved := cs! "Reserved (0x" ++ fmtHex2L v ++ cs! ")"
  if k ≤ 0x01 then cs! "Energy (" ++ tenth ++ cs! "MWh)"
  else if k ≤ 0x07 then reserved
  else if k ≤ 0x09 then cs! "Energy (" ++ tenth ++ cs! "GJ)"
  else if k ≤ 0x0F then reserved
  else if k ≤ 0x11 then cs! "Volume (" ++ unitPrefix ((n : Int) + 2) ++ cs! "m3)"
  else if k ≤ 0x17 then reserved
  else if k ≤ 0x19 then cs! "Mass (" ++ unitPrefix ((n : Int) + 2) ++ cs! "t)"
  else if k ≤ 0x20 then reserved
  else if k = 0x21 then cs! "Volume (0.1 feet^3)"
  else if k ≤ 0x23 then cs! "Volume (" ++ tenth ++ cs! "american gallon)"
  else if k = 0x24 then cs! "Volume flow (0.001 american gallon/min)"
  else if k = 0x25 then cs! "Volume flow (american gallon/min)"
  else if k = 0x26 then cs! "Volume flow (american gallon/h)"
  else if k = 0x27 then reserved
  else if k ≤ 0x29 then cs! "Power (" ++ tenth ++ cs! "MW)"
  else if k ≤ 0x2F then reserved
  else if k ≤ 0x31 then cs! "Power (" ++ tenth ++ cs! "GJ/h)"
  else if k ≤ 0x4F then reserved
  else if k ≤ 0x51 then cs! "Unrecognized VIF 0xFB extension: 0x" ++ fmtHex2L v
  else if k ≤ 0x57 then reserved
  else if k ≤ 0x5B then cs! "Flow Temperature (" ++ unitPrefix (nn - 3) ++ cs! " degree F)"
  else if k ≤ 0x5F then cs! "Return Temperature (" ++ unitPrefix (nn - 3) ++ cs! " degree F)"
  else if k ≤ 0x63 then cs! "Temperature Difference (" ++ unitPrefix (nn - 3) ++ cs! " degree F)"
  else if k ≤ 0x67 then cs! "External Temperature (" ++ unitPrefix (nn - 3) ++ cs! " degree F)"
  else if k ≤ 0x6F then reserved
  else if k ≤ 0x73 then cs! "Cold / Warm Temperature Limit (" ++ unitPrefix (nn - 3) ++ cs! " degree F)"
  else if k ≤ 0x77 then cs! "Cold / Warm Temperature Limit (" ++ unitPrefix (nn - 3) ++ cs! " degree C)"
  else if k ≤ 0x7F then cs! "cumul. count max power (" ++ unitPrefix (nnn - 3) ++ cs! " W)"
  else cs! "Unrecognized VIF 0xFB extension: 0x" ++ fmtHex2L v

/-- mbus-protocol.c:2759-3063 `mbus_vib_unit_lookup_fd` (text), `v` is `vib->vife[0]`. -/
def fdText (v : Byte) : List Byte :=
  let k := v.toNat &&& 0x7F
  let nn := k &&& 0x03
  let nnnn := k &&& 0x0F
  if k &&& 0x7C = 0x00 then
    cs! "Credit of " ++ unitPrefix ((nn : Int) - 3) ++ cs! " of the nominal local legal currency units"
  else if k &&& 0x7C = 0x04 then
    cs! "Debit of " ++ unitPrefix ((nn : Int) - 3) ++ cs! " of the nominal local legal currency units"
  else if k = 0x08 then cs! "Access Number (transmission count)"
  else if k = 0x09 then cs! "Medium (as in fixed header)"
  else if k = 0x0A then cs! "Manufacturer (as in fixed header)"
  else if k = 0x0B then cs! "Parameter set identification"
  else if k = 0x0C then cs! "Model / Version"
  else if k = 0x0D then cs! "Hardware version"
  else if k = 0x0E then cs! "Firmware version"
  else if k = 0x0F then cs! "Software version"
  else if k = 0x10 then cs! "Customer location"
  else if k = 0x11 then cs! "Customer"
  else if k = 0x12 then cs! "Access Code User"
  else if k = 0x13 then cs! "Access Code Operator"
  else if k = 0x14 then cs! "Access Code System Operator"
  else if k = 0x15 then cs! "Access Code Developer"
  else if k = 0x16 then cs! "Password"
  else if k = 0x17 then cs! "Error flags"
  else if k = 0x18 then cs! "Error mask"
  else if k = 0x19 then cs! "Reserved"
  else if k = 0x1A then cs! "Digital output (binary)"
  else if k = 0x1B then cs! "Digital input (binary)"
  else if k = 0x1C then cs! "Baudrate"
  else if k = 0x1D then cs! "response delay time"
  else if k = 0x1E then cs! "Retry"
  else if k = 0x1F then cs! "Reserved"
  else if k = 0x20 then cs! "First storage # for cyclic storage"
  else if k = 0x21 then cs! "Last storage # for cyclic storage"
  else if k = 0x22 then cs! "Size of storage block"
  else if k = 0x23 then cs! "Reserved"
  else if k &&& 0x7C = 0x24 then cs! "Storage interval " ++ durationNn nn
  else if k = 0x28 then cs! "Storage interval month(s)"
  else if k = 0x29 then cs! "Storage interval year(s)"
  else if k = 0x2A then cs! "Reserved"
  else if k = 0x2B then cs! "Reserved"
  else if k &&& 0x7C = 0x2C then cs! "Duration since last readout " ++ durationNn nn
  else if k = 0x30 then cs! "Start (date/time) of tariff"
  else if k &&& 0x7C = 0x30 then cs! "Duration of tariff " ++ durationNn nn
  else if k &&& 0x7C = 0x34 then cs! "Period of tariff " ++ durationNn nn
  else if k = 0x38 then cs! "Period of tariff months(s)"
  else if k = 0x39 then cs! "Period of tariff year(s)"
  else if k = 0x3A then cs! "dimensionless / no VIF"
  else if k = 0x3B then cs! "Reserved"
  else if k &&& 0x7C = 0x3C then cs! "Reserved"
  else if k &&& 0x70 = 0x40 then unitPrefix ((nnnn : Int) - 9) ++ cs! " V"
  else if k &&& 0x70 = 0x50 then unitPrefix ((nnnn : Int) - 12) ++ cs! " A"
  else if k = 0x60 then cs! "Reset counter"
  else if k = 0x61 then cs! "Cumulation counter"
  else if k = 0x62 then cs! "Control signal"
  else if k = 0x63 then cs! "Day of week"
  else if k = 0x64 then cs! "Week number"
  else if k = 0x65 then cs! "Time point of day change"
  else if k = 0x66 then cs! "State of parameter activation"
  else if k = 0x67 then cs! "Special supplier information"
  else if k &&& 0x7C = 0x68 then cs! "Duration since last cumulation " ++ durationPp nn
  else if k &&& 0x7C = 0x6C then cs! "Operating time battery " ++ durationPp nn
  else if k = 0x70 then cs! "Date and time of battery change"
  else if k &&& 0x70 = 0x70 then cs! "Reserved VIF extension"
  else cs! "Unrecognized VIF 0xFD extension: 0x" ++ fmtHex2L (UInt8.ofNat k)

/-- mbus-protocol.c:3078-3120 `mbus_vib_unit_lookup`: the text formatted into its static buff[256] (or returned literally). -/
def vibUnitText (r : Record) : C (List Byte) := do
  let v0 ← r.vife.rd 0
  if r.vif = 0xFB then
    if r.nvife = 0 then .ok (cs! "Missing VIF extension") else .ok (snp 256 (fbText v0))
  else if r.vif = 0xFD then
    if r.nvife = 0 then .ok (cs! "Missing VIF extension") else .ok (snp 256 (fdText v0))
  else if r.vif = 0x7C then cstr r.customVif.bytes
  else if r.vif = 0xFC ∧ v0 &&& 0x78 = 0x70 then do
    let c ← cstr r.customVif.bytes
    .ok (unitPrefix (((v0 &&& 0x07).toNat : Int) - 6) ++ cs! " " ++ c)
  else .ok (vifUnitLookup r.vif)

/-- mbus-protocol.c:3078-3120 `mbus_vib_unit_lookup` -/
def vibUnitLookup (r : Record) : C (List Byte) := do
  let t ← vibUnitText r
  .ok (snp 256 t)

/-- mbus-protocol.c:3419-3432 `mbus_data_record_unit`, static buff[128] -/
def recordUnit (r : Record) : C (List Byte) := do
  let t ← vibUnitLookup r
  .ok (snp 128 t)

/-- mbus-protocol.c:3527-3560 `mbus_data_record_function` (text), mask 0x30 -/
def recordFunctionText (r : Record) : List Byte :=
  let k := r.dif.toNat &&& 0x30
  if k = 0x00 then cs! "Instantaneous value" else if k = 0x10 then cs! "Maximum value"
  else if k = 0x20 then cs! "Minimum value" else if k = 0x30 then cs! "Value during error state" else cs! "unknown"
/-- mbus-protocol.c:3527-3560 `mbus_data_record_function`, static buff[128] -/
def recordFunction (r : Record) : List Byte := snp 128 (recordFunctionText r)

/-- one guarded `strcpy` of mbus-protocol.c:916-1366 -/
def ProdRule.applies (p : ProdRule) (version medium id3 : Nat) : Bool :=
  let key := if p.onId3 then id3 else version
  decide (p.lo ≤ key) && decide (key ≤ p.hi) && (match p.medium with | none => true | some m => m == medium)

/-- mbus-protocol.c:916-1366 `mbus_data_product_name`: text copied (empty after the `memset` if no branch applies) -/
def productNameText (h : VarHeader) (id3 m0 m1 : Byte) : List Byte :=
  let man := m1.toNat * 256 + m0.toNat
  match productRules.find? (fun e => e.1.any (fun s => man == manufacturerId s)) with
  | none => []
  | some e =>
    match e.2.find? (fun p => p.applies h.version.toNat h.medium.toNat id3.toNat) with
    | none => []
    | some p => p.label

/-- mbus-protocol.c:916-1366 `mbus_data_product_name`, static buff[128] -/
def productName (h : VarHeader) : C (List Byte) := do
  let m0 ← h.manufacturer.rd 0
  let m1 ← h.manufacturer.rd 1
  let id3 ← h.idBcd.rd 3
  strcpyS 128 (productNameText h id3 m0 m1)

/-! ### normalisation -/

/-- Result of a normalise function: return code, `*unit_out`, `*value_out`, `*quantity_out`. -/
structure Norm where
  code : Int
  unit : List Byte
  value : Flt
  quantity : List Byte
  deriving DecidableEq

/-- mbus-protocol-aux.c:1044-1074 `mbus_vif_unit_normalize(int vif, double value, ...)` -/
def vifUnitNormalize (vif : Int) (value : Flt) : Norm :=
  let newVif := (vif % 4096).toNat &&& 0xF7F
  match vifTable.find? (fun r => r.vif == newVif) with
  | some r => { code := 0, unit := r.unit, value := value.mul (.lit r.exponent), quantity := r.quantity }
  | none => { code := -1, unit := cs! "Unknown (VIF=0x%.02X)", value := .lit 0, quantity := cs! "Unknown" }

/-- mbus-protocol-aux.c:786-826 `mbus_fixed_normalize(int medium_unit, long medium_value, ...)`; `old` is the value of
`*value_out` before the call (it stays untouched for the two date/time codes). -/
def fixedNormalize (u : Int) (v : Int) (old : Flt) : Norm :=
  let k := (u % 64).toNat
  if k = 0x00 then { code := -2, unit := cs! "h,m,s", value := old, quantity := cs! "Time" }
  else if k = 0x01 then { code := -2, unit := cs! "D,M,Y", value := old, quantity := cs! "Time" }
  else
    match fixedTable.find? (fun r => r.vif == k) with
    | some r => { code := 0, unit := r.unit, value := (Flt.lit (v : Rat)).mul (.lit r.exponent), quantity := r.quantity }
    | none => { code := -1, unit := cs! "Unknown", value := .lit 0, quantity := cs! "Unknown" }

/-- mbus-protocol-aux.c:1141-1168: the correction taken from the first VIFE (`pow(10.0, k)` is taken to be the `double` nearest to the exact power). -/
def vifeCorrection (v0 : Byte) (x : Flt) : Flt :=
  let code := v0.toNat &&& 0x7F
  if 0x70 ≤ code ∧ code ≤ 0x77 then x.mul (.lit ((10 : Rat) ^ (((v0.toNat &&& 0x07 : Nat) : Int) - 6)))
  else if 0x78 ≤ code ∧ code ≤ 0x7B then x.add (.lit ((10 : Rat) ^ (((v0.toNat &&& 0x03 : Nat) : Int) - 3)))
  else if code = 0x7D then x.mul (.lit 1000)
  else x

/-- mbus-protocol-aux.c:1077-1171 `mbus_vib_unit_normalize`; `none` for the two early `return -1` that leave the outputs
alone. -/
def vibUnitNormalize (r : Record) (value : Flt) : C (Option Norm) := do
  let v0 ← r.vife.rd 0
  let base : Option Norm ←
    if r.vif = 0xFD then
      .ok (if r.nvife = 0 then none
           else some (vifUnitNormalize (((v0.toNat &&& 0x7F) ||| 0x100 : Nat) : Int) value))
    else if r.vif = 0xFB then
      .ok (if r.nvife = 0 then none
           else some (vifUnitNormalize (((v0.toNat &&& 0x7F) ||| 0x200 : Nat) : Int) value))
    else if r.vif = 0x7C ∨ r.vif = 0xFC then do
      let c ← cstr r.customVif.bytes
      .ok (some { code := 0, unit := cs! "-", value := value, quantity := c })
    else .ok (some (vifUnitNormalize ((r.vif.toNat &&& 0x7F : Nat) : Int) value))
  match base with
  | none => .ok none
  | some b =>
    if b.code ≠ 0 then .ok (some b)
    else if r.vif.toNat &&& 0x80 ≠ 0 ∧ r.vif ≠ 0xFD ∧ r.vif ≠ 0xFB then
      .ok (some { b with value := vifeCorrection v0 b.value })
    else .ok (some b)

end Mbus
