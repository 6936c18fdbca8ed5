import Verif.Model.Unit
/-
Model of the value decoders: `mbus_data_float_decode` (mbus-protocol.c:689-739), `mbus_data_record_decode` (3145-3415),
`mbus_data_record_value` (3437-3450), `mbus_variable_value_decode` (mbus-protocol-aux.c:829-1042), `mbus_record_new`
(1174-1194), `mbus_parse_fixed_record` (1230-1271), `mbus_parse_variable_record` (1274-1385).
Simplifications: NULL arguments, allocation failure and debug output are not modelled; `float`/`double` values are exact
(sign and rational magnitude, infinity, NaN); `double` arithmetic is that of Model/Double.lean.
-/
namespace Mbus

/-- The value of a `float` whose object representation is the 32-bit number `w` (IEEE 754 binary32: the meaning of the
union read of mbus-protocol.c:727-732 on hosts with IEEE floats). -/
def ieee32 (w : Nat) : Flt :=
  let neg := decide (w / 2 ^ 31 % 2 = 1)
  let e : Nat := w / 2 ^ 23 % 256
  let m : Nat := w % 2 ^ 23
  if e = 255 then (if m = 0 then .inf neg else .nan neg)
  else if e = 0 then .fin neg ((m : Rat) / 2 ^ 149)
  else .fin neg (((2 ^ 23 + m : Nat) : Rat) * 2 ^ e / 2 ^ 150)

/-- mbus-protocol.c:725-734, the usual branch of `mbus_data_float_decode`: `memcpy` of four bytes to a `uint32_t` which
takes them in host byte order. -/
def floatDecodeHost (bigEndian : Bool) (d : List Byte) : C Flt := do
  let b0 ← rd d 0
  let b1 ← rd d 1
  let b2 ← rd d 2
  let b3 ← rd d 3
  let w := if bigEndian then ((b0.toNat * 256 + b1.toNat) * 256 + b2.toNat) * 256 + b3.toNat
           else ((b3.toNat * 256 + b2.toNat) * 256 + b1.toNat) * 256 + b0.toNat
  .ok (ieee32 w)

/-- `mbus_data_float_decode` on a little-endian host (mbus-protocol.c:725-734). -/
def floatDecode (d : List Byte) : C Flt := floatDecodeHost false d

/-- mbus-protocol.c:692-724, the `_HAS_NON_IEEE754_FLOAT` branch of `mbus_data_float_decode` (`long` is 64 bit): the value
of the expression `(float) sign * fraction * pow(2.0f, -23.0f + exponent)` before its conversion to `float`.
`pow(2, k)` is the exact power. -/
def floatDecodePortable (d : List Byte) : C Flt := do
  let temp ← forDown d 4 (0 : Int) fun b t => do
    let s ← int64 (t * 256)
    int64 (s + (b.toNat : Int))
  let neg := decide (temp >>> 31 ≠ 0)
  let t := temp.toNat
  let exponent : Int := (((t &&& 0x7F800000) >>> 23 : Nat) : Int) - 127
  let fraction := t &&& 0x007FFFFF
  let fraction := if exponent ≠ -127 ∧ exponent ≠ 128 then fraction ||| 0x800000 else fraction
  .ok (.fin neg ((fraction : Rat) * (2 : Rat) ^ (-23 + exponent)))

/-- `%f` (glibc: exact value rounded to six decimals, ties to even). -/
def fmtF : Flt → List Byte
  | .inf neg => (if neg then [45] else []) ++ cs! "inf"
  | .nan neg => (if neg then [45] else []) ++ cs! "nan"
  | .fin neg mag =>
      let n := roundEven (mag * 1000000)
      (if neg then [45] else []) ++ decDigits (n / 1000000) ++ [46] ++ padZero 6 (decDigits (n % 1000000))

/-- `%0Nd` of an `int`: `w` is the field width. -/
def fmtPad (w : Nat) (z : Int) : List Byte :=
  if z < 0 then 45 :: padZero (w - 1) (decDigits z.natAbs) else padZero w (decDigits z.natAbs)

/-- `"%04d-%02d-%02d", (tm_year + 1900), (tm_mon + 1), tm_mday` -/
def fmtDate (t : Tm) : C (List Byte) := do
  let y ← int32 (t.year + 1900)
  let m ← int32 (t.mon + 1)
  .ok (fmtPad 4 y ++ [45] ++ fmtPad 2 m ++ [45] ++ fmtPad 2 t.mday)

/-- `"%04d-%02d-%02dT%02d:%02d:%02d"` -/
def fmtDateTime (t : Tm) : C (List Byte) := do
  let d ← fmtDate t
  .ok (d ++ [84] ++ fmtPad 2 t.hour ++ [58] ++ fmtPad 2 t.min ++ [58] ++ fmtPad 2 t.sec)

/-- `(int) v` of a `long long` (gcc/clang: reduction modulo 2^32). -/
def toInt32 (v : Int) : Int := (v + 2147483648) % 4294967296 - 2147483648

/-- `size_t` subtraction `n - 1` (64 bit). -/
def sizePred (n : Nat) : Nat := (n + 2 ^ 64 - 1) % 2 ^ 64

/-- mbus-protocol.c:3205-3207, 3265-3267 and mbus-protocol-aux.c:884-886, 935-937: the record is a date/time point.
`vif`, `vife` are the first bytes without extension bit. -/
def isDateTime (r : Record) (v0 : Byte) : Bool :=
  decide (r.vif &&& 0x7F = 0x6D) || (decide (r.vif = 0xFD) && decide (v0 &&& 0x7F = 0x30)) ||
    (decide (r.vif = 0xFD) && decide (v0 &&& 0x7F = 0x70))

/-- mbus-protocol.c:3296-3374, the BCD cases of up to four bytes: hexadecimal text for function field 0x30 (value during
error state), decimal otherwise; both through an `int`. -/
def bcdText (r : Record) (n : Nat) : C (List Byte) :=
  if r.dif &&& 0x30 = 0x30 then do
    let v ← bcdDecodeHex r.data.bytes n
    .ok (hexDigits (toInt32 v % 4294967296).toNat)
  else do
    let v ← bcdDecode r.data.bytes n
    .ok (fmtInt (toInt32 v))

/-- mbus-protocol.c:3145-3415 `mbus_data_record_decode(record)`; `buff` is the content of its static `buff[768]` before
the call, the result the content afterwards (the function returns a pointer to it). -/
def recordDecode (buff : List Byte) (r : Record) : C (List Byte) := do
  let v0 ← r.vife.rd 0
  let d := r.data.bytes
  let print (t : List Byte) : C (List Byte) := snprintfAt buff 0 768 t
  let printInt (n : Nat) : C (List Byte) := do
    let (_, v) ← intDecode d n
    print (fmtInt v)
  match (r.dif &&& 0x0F).toNat with
  | 0x00 => wr buff 0 0
  | 0x01 => printInt 1
  | 0x02 =>
    if r.vif &&& 0x7F = 0x6C then do
      let t ← tmDecode d 2
      let s ← fmtDate t
      print s
    else printInt 2
  | 0x03 => printInt 3
  | 0x04 =>
    if isDateTime r v0 then do
      let t ← tmDecode d 4
      let s ← fmtDateTime t
      print s
    else printInt 4
  | 0x05 => do
    let f ← floatDecode d
    print (fmtF f)
  | 0x06 =>
    if isDateTime r v0 then do
      let t ← tmDecode d 6
      let s ← fmtDateTime t
      print s
    else do
      let (_, v) ← longLongDecode d 6
      print (fmtInt v)
  | 0x07 => do
    let (_, v) ← longLongDecode d 8
    print (fmtInt v)
  | 0x09 => do
    let s ← bcdText r 1
    print s
  | 0x0A => do
    let s ← bcdText r 2
    print s
  | 0x0B => do
    let s ← bcdText r 3
    print s
  | 0x0C => do
    let s ← bcdText r 4
    print s
  | 0x0D => do
    let b ← rd d 0
    if b ≤ 0xBF then strDecode buff (d.drop 1) (sizePred r.dataLen)
    else binDecode buff (d.drop 1) (sizePred r.dataLen) 768
  | 0x0E =>
    if r.dif &&& 0x30 = 0x30 then do
      let v ← bcdDecodeHex d 6
      print (hexDigits (v % 2 ^ 64).toNat)
    else do
      let v ← bcdDecode d 6
      print (fmtInt v)
  | 0x0F => binDecode buff d r.dataLen 768
  | _ => print (cs! "Unknown DIF (0x" ++ fmtHex2L r.dif ++ cs! ")")

/-- mbus-protocol.c:3437-3450 `mbus_data_record_value`: the returned C string (own static buff[768]). -/
def recordValue (buff : List Byte) (r : Record) : C (List Byte) := do
  let b ← recordDecode buff r
  let s ← cstr b
  .ok (snp 768 s)

/-! ### normalised records (mbus-protocol-aux.c) -/

/-- `malloc(n)`: `n` bytes of arbitrary content. -/
def malloc (junk : Nat → Byte) (n : Nat) : List Byte := (List.range n).map junk

/-- Outputs of `mbus_variable_value_decode`: return code, `*value_out_real`, `*value_out_str` (the allocated region, NULL is
`none`), `*value_out_str_size`. -/
structure ValOut where
  code : Int
  real : Flt
  str : Option (List Byte)
  size : Int
  deriving DecidableEq

/-- conversion of an integer to `double` (rounded to 53 bits) -/
def Flt.ofInt (z : Int) : Flt := .lit (z : Rat)

/-- mbus-protocol-aux.c:829-1042 `mbus_variable_value_decode(record, ...)`. -/
def variableValueDecode (junk : Nat → Byte) (r : Record) : C ValOut := do
  let v0 ← r.vife.rd 0
  let d := r.data.bytes
  let num (code v : Int) : C ValOut := .ok ⟨code, Flt.ofInt v, none, 0⟩
  let zero := Flt.ofInt 0
  let printed (cap : Nat) (s : List Byte) : C ValOut := do
    let b ← snprintfAt (malloc junk cap) 0 cap s
    .ok ⟨0, zero, some b, s.length⟩
  match (r.dif &&& 0x0F).toNat with
  | 0x00 => do
    let b ← wr (malloc junk 1) 0 0
    .ok ⟨0, zero, some b, 0⟩
  | 0x01 => do
    let (c, v) ← intDecode d 1
    num c v
  | 0x02 =>
    if r.vif &&& 0x7F = 0x6C then do
      let t ← tmDecode d 2
      let s ← fmtDate t
      printed 11 s
    else do
      let (c, v) ← intDecode d 2
      num c v
  | 0x03 => do
    let (c, v) ← intDecode d 3
    num c v
  | 0x04 =>
    if isDateTime r v0 then do
      let t ← tmDecode d 4
      let s ← fmtDateTime t
      printed 21 (s ++ [90])
    else do
      let (c, v) ← intDecode d 4
      num c v
  | 0x05 => do
    let f ← floatDecode d
    .ok ⟨0, f, none, 0⟩
  | 0x06 =>
    if isDateTime r v0 then do
      let t ← tmDecode d 6
      let s ← fmtDateTime t
      printed 21 (s ++ [90])
    else do
      let (c, v) ← longLongDecode d 6
      num c v
  | 0x07 => do
    let (c, v) ← longLongDecode d 8
    num c v
  | 0x09 => do
    let v ← bcdDecode d 1
    num 0 v
  | 0x0A => do
    let v ← bcdDecode d 2
    num 0 v
  | 0x0B => do
    let v ← bcdDecode d 3
    num 0 v
  | 0x0C => do
    let v ← bcdDecode d 4
    num 0 v
  | 0x0D => do
    let b ← rd d 0
    let n := sizePred r.dataLen
    if b ≤ 0xBF then do
      let s ← strDecode (malloc junk r.dataLen) (d.drop 1) n
      .ok ⟨0, zero, some s, toInt32 n⟩
    else do
      let s ← binDecode (malloc junk ((3 * n + 1) % 2 ^ 64)) (d.drop 1) n ((3 * n + 1) % 2 ^ 64)
      .ok ⟨0, zero, some s, toInt32 ((3 * n : Nat) : Int)⟩
  | 0x0E => do
    let v ← bcdDecode d 6
    num 0 v
  | 0x0F => do
    let s ← binDecode (malloc junk (3 * r.dataLen + 1)) d r.dataLen (3 * r.dataLen + 1)
    .ok ⟨0, zero, some s, toInt32 ((3 * r.dataLen : Nat) : Int)⟩
  | _ => .ok ⟨-2, zero, none, 0⟩

/-- The value of a normalised record: a number or an allocated text with its `size` field
(mbus-protocol-aux.h:122-134). -/
inductive NVal where
  | num (x : Flt)
  | str (region : List Byte) (size : Int)
  deriving DecidableEq

/-- mbus-protocol-aux.h:140-150 `mbus_record`; `unit` and `quantity` may be NULL. -/
structure NRecord where
  value : NVal
  unit : Option (List Byte)
  function : List Byte
  quantity : Option (List Byte)
  device : Int
  tariff : Int
  storage : Int
  deriving DecidableEq

/-- mbus-protocol-aux.c:1230-1271 `mbus_parse_fixed_record(status_byte, medium_unit, data)`; `none` is NULL.
`char` arguments are converted to `int` with sign extension, which the callee masks again. -/
def parseFixedRecord (status unit : Byte) (d : List Byte) : C (Option NRecord) := do
  let fn := fixedFunction status.toNat
  let v ← if status &&& 0x80 = 0x00 then bcdDecode d 4
    else do
      let (_, v) ← longDecode d 4
      .ok v
  let n := fixedNormalize unit.toNat v (.lit 0)
  if n.code ≠ 0 then .ok none
  else .ok (some { value := .num n.value
                   unit := some n.unit
                   function := fn
                   quantity := some n.quantity
                   device := -1
                   tariff := -1
                   storage := 0 })

/-- mbus-protocol-aux.c:1274-1385 `mbus_parse_variable_record(data)`: the returned record (`none` is NULL) and the
allocated text that is neither part of it nor freed, if any. -/
def parseVariableRecord (junk : Nat → Byte) (r : Record) : C (Option NRecord × Option (List Byte)) := do
  let st ← storageNumber r
  let ta ← tariff r
  let dv ← device r
  if r.dif = 0x0F ∨ r.dif = 0x1F then do
    let fn := if r.dif = 0x1F then cs! "More records follow" else cs! "Manufacturer specific"
    let o ← variableValueDecode junk r
    if o.code ≠ 0 then .ok (none, o.str)
    else
      let v := match o.str with
        | some s => .str s o.size
        | none => .num (Flt.ofInt 0)
      .ok (some { value := v
                  unit := none
                  function := fn
                  quantity := none
                  device := dv
                  tariff := ta
                  storage := st }, none)
  else do
    let fn := recordFunction r
    let o ← variableValueDecode junk r
    if o.code ≠ 0 then .ok (none, o.str)
    else do
      let n ← vibUnitNormalize r o.real
      match n with
      | none => .ok (none, o.str)
      | some n =>
        if n.code ≠ 0 then .ok (none, o.str)
        else
          let v := match o.str with
            | some s => .str s o.size
            | none => .num n.value
          .ok (some { value := v
                      unit := some n.unit
                      function := fn
                      quantity := some n.quantity
                      device := dv
                      tariff := ta
                      storage := st }, none)

end Mbus
