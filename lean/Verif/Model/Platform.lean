import Verif.Model.Value
import Verif.Model.Address
import Verif.Model.Xml
import Verif.Model.Main
/-
The data types of the machine the library is compiled for.  The other modules fix the LP64 model (64-bit `long`); the code also uses
`long` and plain `char`, whose width and signedness the C standard leaves open: 32-bit ARM has 32-bit `long` and unsigned `char`, 32-bit
x86 has 32-bit `long` and signed `char`.  Here the functions that use these types are modelled with both left open.  `int` is 32 bit and
`long long` 64 bit throughout.
-/
namespace Mbus

/-- width of `long` and signedness of plain `char` (both are used, not chosen, by /repo) -/
structure Machine where
  longBits : Nat
  charSigned : Bool
  deriving DecidableEq

/-- x86-64 and the model of the other modules -/
def Machine.lp64 : Machine := ⟨64, true⟩
/-- 32-bit x86 -/
def Machine.i386 : Machine := ⟨32, true⟩
/-- 32-bit ARM -/
def Machine.arm32 : Machine := ⟨32, false⟩

/-- largest value of `long` -/
def Machine.longMax (P : Machine) : Int := 2 ^ (P.longBits - 1) - 1
/-- smallest value of `long` -/
def Machine.longMin (P : Machine) : Int := -2 ^ (P.longBits - 1)

/-- `long` arithmetic: the mathematical result, or undefined behaviour -/
def Machine.fit (P : Machine) (z : Int) : C Int := if P.longMin ≤ z ∧ z ≤ P.longMax then .ok z else .error .overflow

/-- conversion to `long` (implementation-defined modulo 2^N when the value does not fit, gcc/clang) -/
def Machine.toLong (P : Machine) (z : Int) : Int := (z + 2 ^ (P.longBits - 1)) % 2 ^ P.longBits - 2 ^ (P.longBits - 1)

/-- conversion to `unsigned long` -/
def Machine.toULong (P : Machine) (z : Int) : Int := z % 2 ^ P.longBits

/-- conversion of an `unsigned char` to plain `char` and on to `int` -/
def Machine.charOf (P : Machine) (b : Byte) : Int := if P.charSigned ∧ 128 ≤ b.toNat then (b.toNat : Int) - 256 else b.toNat

/-- mbus-protocol.c:591-623 `mbus_data_long_decode` -/
def longDecodeOn (P : Machine) (d : List Byte) (size : Nat) : C (Int × Int) := intDecodeWith P.fit d size

/-- mbus-protocol.c:692-724, the `_HAS_NON_IEEE754_FLOAT` branch of `mbus_data_float_decode` with `long temp, fraction`; `temp` is not
negative behind the loop. -/
def floatDecodePortableOn (P : Machine) (d : List Byte) : C Flt := do
  let temp ← forDown d 4 (0 : Int) fun b t => do
    let s ← P.fit (t * 256)
    P.fit (s + (b.toNat : Int))
  let neg := decide (temp >>> 31 ≠ 0)
  let t := temp.toNat
  let exponent : Int := (((t &&& 0x7F800000) >>> 23 : Nat) : Int) - 127
  let fraction := t &&& 0x007FFFFF
  let fraction := if exponent ≠ -127 ∧ exponent ≠ 128 then fraction ||| 0x800000 else fraction
  .ok (.fin neg ((fraction : Rat) * (2 : Rat) ^ (-23 + exponent)))

/-- the loops of mbus-protocol.c:3466-3470 and 3489-3493: the shifted part is an `int`, `result` a `long` -/
def assembleOn (P : Machine) (dife : Buf 10) (part : Byte → Nat) (step : Nat) (n : Nat) (init bit0 : Nat) : C (Nat × Nat) :=
  forN n 0 (init, bit0) fun i (acc, bit) => do
    let b ← dife.rd i
    if 32 ≤ bit then .error .shift
    else if part b <<< bit > 2147483647 then .error .shift
    else .ok (acc ||| (P.toLong ((part b <<< bit : Nat) : Int)).toNat, bit + step)

/-- mbus-protocol.c:3455-3476 `mbus_data_record_storage_number` -/
def storageNumberOn (P : Machine) (r : Record) : C Int := do
  let (v, _) ← assembleOn P r.dife (fun b => (b &&& 0x0F).toNat) 4 r.ndife ((r.dif &&& 0x40).toNat >>> 6) 1
  .ok v

/-- mbus-protocol.c:3481-3499 `mbus_data_record_tariff` -/
def tariffOn (P : Machine) (r : Record) : C Int :=
  if r.ndife > 0 then do
    let (v, _) ← assembleOn P r.dife (fun b => (b &&& 0x30).toNat >>> 4) 2 r.ndife 0 0
    .ok v
  else .ok (-1)

/-- mbus-protocol-aux.c:1230-1271 `mbus_parse_fixed_record(char status_byte, char medium_unit, data)`: `status_byte & 0x80` on the
converted `char`, `long value`; `none` is NULL. -/
def parseFixedRecordOn (P : Machine) (status unit : Byte) (d : List Byte) : C (Option NRecord) := do
  let st := P.charOf status
  let fn := fixedFunction st
  let v ← if (st % 256).toNat &&& 0x80 = 0x00 then do
      let v ← bcdDecode d 4
      .ok (P.toLong v)
    else do
      let (_, v) ← longDecodeOn P d 4
      .ok v
  let n := fixedNormalize (P.charOf unit) v (.lit 0)
  if n.code ≠ 0 then .ok none
  else .ok (some { value := .num n.value
                   unit := some n.unit
                   function := fn
                   quantity := some n.quantity
                   device := -1
                   tariff := -1
                   storage := 0 })

/-- mbus-protocol-aux.c:1274-1385 `mbus_parse_variable_record(data)` with the fields `long tariff, storage_number`
(mbus-protocol-aux.h:147-148); result as in `parseVariableRecord`. -/
def parseVariableRecordOn (P : Machine) (junk : Nat → Byte) (r : Record) : C (Option NRecord × Option (List Byte)) := do
  let st ← storageNumberOn P r
  let ta ← tariffOn P r
  let dv ← device r
  if r.dif = 0x0F ∨ r.dif = 0x1F then do
    let fn := if r.dif = 0x1F then cs! "More records follow" else cs! "Manufacturer specific"
    let o ← variableValueDecode junk r
    if o.code ≠ 0 then .ok (none, o.str)
    else
      let v := match o.str with
        | some s => .str s o.size
        | none => .num (Flt.ofInt 0)
      .ok (some { value := v
                  unit := none
                  function := fn
                  quantity := none
                  device := dv
                  tariff := ta
                  storage := st }, none)
  else do
    let fn := recordFunction r
    let o ← variableValueDecode junk r
    if o.code ≠ 0 then .ok (none, o.str)
    else do
      let n ← vibUnitNormalize r o.real
      match n with
      | none => .ok (none, o.str)
      | some n =>
        if n.code ≠ 0 then .ok (none, o.str)
        else
          let v := match o.str with
            | some s => .str s o.size
            | none => .num n.value
          .ok (some { value := v
                      unit := some n.unit
                      function := fn
                      quantity := some n.quantity
                      device := dv
                      tariff := ta
                      storage := st }, none)

/-- mbus-protocol.c:4708-4714: tariff and device of a record, `long tariff` (4672) -/
def tariffXmlOn (P : Machine) (b : XBuf) (r : Record) : C XBuf := do
  let ta ← tariffOn P r
  if ta ≥ 0 then do
    let b ← b.put (cs! "        <Tariff>" ++ fmtInt ta ++ cs! "</Tariff>\n")
    let d ← device r
    b.put (cs! "        <Device>" ++ fmtInt d ++ cs! "</Device>\n")
  else .ok b

/-- mbus-protocol.c:4688-4719: function, storage number (%ld), tariff, device and unit -/
def recordFieldsXmlOn (P : Machine) (e : List Byte) (b : XBuf) (r : Record) : C (XBuf × List Byte) :=
  if r.dif = 0x0F then do
    let b ← b.put (cs! "        <Function>Manufacturer specific</Function>\n")
    .ok (b, e)
  else if r.dif = 0x1F then do
    let b ← b.put (cs! "        <Function>More records follow</Function>\n")
    .ok (b, e)
  else do
    let (e, t) ← encodeInto e (recordFunction r)
    let b ← b.put (cs! "        <Function>" ++ t ++ cs! "</Function>\n")
    let st ← storageNumberOn P r
    let b ← b.put (cs! "        <StorageNumber>" ++ fmtInt st ++ cs! "</StorageNumber>\n")
    let b ← tariffXmlOn P b r
    let u ← recordUnit r
    let (e, t) ← encodeInto e u
    let b ← b.put (cs! "        <Unit>" ++ t ++ cs! "</Unit>\n")
    .ok (b, e)

/-- mbus-protocol.c:4664-4738 `mbus_data_variable_record_xml` -/
def recordXmlOn (P : Machine) (junk : Nat → Byte) (r : Record) (stamp : Option (List Byte)) (cnt frameCnt : Int) : C (List Byte) := do
  let b ← recordOpenXml ⟨malloc (scratch junk 0) 8192, 0⟩ cnt frameCnt
  let (b, e) ← recordFieldsXmlOn P (malloc (scratch junk 1) 768) b r
  let v ← recordValue (malloc (scratch junk 2) 768) r
  let (_, t) ← encodeInto e v
  let b ← b.put (cs! "        <Value>" ++ t ++ cs! "</Value>\n")
  let b ← stampXml b stamp
  let b ← b.put (cs! "    </DataRecord>\n\n")
  cstr b.mem

/-- mbus-protocol.c:5183-5224 `mbus_frame_get_secondary_address`: `unsigned long id`, printed with %08lX; result as in
`getSecondaryAddress`. -/
def getSecondaryAddressOn (P : Machine) (f : Frame) : C (Option (List Byte)) :=
  if f.ci ≠ 0x72 then .ok none
  else do
    let (r, x) ← frameDataParse f FrameData.new
    if r = -1 then .ok none
    else do
      let v ← bcdDecodeHex x.var.header.idBcd.bytes 4
      let id := P.toULong v
      let m0 ← x.var.header.manufacturer.rd 0
      let m1 ← x.var.header.manufacturer.rd 1
      .ok (some (padZero 8 (hexDigits id.toNat) ++ fmtHex2 m0 ++ fmtHex2 m1 ++ fmtHex2 x.var.header.version ++
        fmtHex2 x.var.header.medium))

/-- C library `atol` (glibc: `strtol(s, NULL, 10)`, which saturates), used for the ports and baud rates of the tools
(e.g. bin/mbus-tcp-scan.c:64, bin/mbus-serial-scan.c:72) -/
def atolOn (P : Machine) (s : List Byte) : Int :=
  let s := s.dropWhile isSpace
  let (neg, s) := match s with
    | c :: t => if c = 45 then (true, t) else if c = 43 then (false, t) else (false, c :: t)
    | [] => (false, [])
  let n : Nat := (s.takeWhile isDigit).foldl (fun a c => 10 * a + (c.toNat - 48)) 0
  if neg then max P.longMin (-(n : Int)) else min P.longMax n

/-- C library `atoi` (glibc: `(int) strtol(s, NULL, 10)`), used for the addresses, retries and subcodes of the tools
(e.g. bin/mbus-serial-request-data.c:166) -/
def atoiOn (P : Machine) (s : List Byte) : Int := (atolOn P s + 2 ^ 31) % 2 ^ 32 - 2 ^ 31

end Mbus
