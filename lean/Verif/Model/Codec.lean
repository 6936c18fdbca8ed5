import Verif.Model.CStr
/-
Model of the data encoding/decoding functions of mbus/mbus-protocol.c (27-56, 446-914, 4563-4621) and of
`mbus_hex2bin` (mbus-protocol-aux.c:2541-2581).  Pointer arguments are assumed non-NULL.
-/
namespace Mbus

/-! ### integers -/

/-- The loop `for (i = size; i > 0; i--) body(d[i-1])` over a byte array: most significant (last) byte first. -/
def forDown {σ : Type} (d : List Byte) : (i : Nat) → σ → (Byte → σ → C σ) → C σ
  | 0, s, _ => .ok s
  | i + 1, s, f => do
      let b ← rd d i
      let s ← f b s
      forDown d i s f

/-- mbus-protocol.c:557-589 `mbus_data_int_decode` when `chk` is `int32`; 591-623 `mbus_data_long_decode` and 625-657
`mbus_data_long_long_decode` when `chk` is `int64` (the three bodies are textually identical up to the type).
`*value << 8` is `* 256` with the overflow check of the type; `^ 0xFF` is `255 - b`.
Result: return code and `*value`. -/
def intDecodeWith (chk : Int → C Int) (d : List Byte) (size : Nat) : C (Int × Int) :=
  if size < 1 then .ok (-1, 0)
  else do
    let top ← rd d (size - 1)
    let neg := decide (top.toNat &&& 0x80 ≠ 0)
    let v ← forDown d size (0 : Int) fun b v => do
      let s ← chk (v * 256)
      if neg then chk (s + ((b ^^^ 0xFF).toNat : Int)) else chk (s + (b.toNat : Int))
    if neg then do
      let m ← chk (v * -1)
      let m ← chk (m - 1)
      .ok (0, m)
    else .ok (0, v)

/-- mbus-protocol.c:557-589 -/
def intDecode (d : List Byte) (size : Nat) : C (Int × Int) := intDecodeWith int32 d size
/-- mbus-protocol.c:591-623 -/
def longDecode (d : List Byte) (size : Nat) : C (Int × Int) := intDecodeWith int64 d size
/-- mbus-protocol.c:625-657 -/
def longLongDecode (d : List Byte) (size : Nat) : C (Int × Int) := intDecodeWith int64 d size

/-- mbus-protocol.c:664-680 `mbus_data_int_encode(int_data, int_data_size, value)`; shifting an `int` by 32 or more is
undefined, `>>` of a negative value is arithmetic (gcc/clang). -/
def intEncode (d : List Byte) (size : Nat) (value : Int) : C (List Byte) :=
  forN size 0 d fun i d =>
    if 32 ≤ i * 8 then .error .shift
    else wr d i (UInt8.ofNat ((value >>> (i * 8)) % 256).toNat)

/-! ### BCD -/

/-- mbus-protocol.c:458-489 `mbus_data_bcd_encode(bcd_data, size, value)`: return code and buffer.
`abs(INT_MIN)` overflows. -/
def bcdEncode (d : List Byte) (size : Nat) (value : Int) : C (Int × List Byte) :=
  if size = 0 then .ok (-1, d)
  else do
    let a ← int32 (if value < 0 then -value else value)
    let (d, _) ← forN size 0 (d, a.toNat) fun i (d, v2) => do
      let v0 := v2
      let v1 := v0 / 10
      let v2 := v1 / 10
      let x1 := v0 - v1 * 10
      let x2 := v1 - v2 * 10
      let d ← wr d (size - 1 - i) (UInt8.ofNat ((x2 <<< 4) ||| x1))
      .ok (d, v2)
    if value < 0 then do
      let b ← rd d (size - 1)
      let d ← wr d (size - 1) (b ||| 0xF0)
      .ok (0, d)
    else .ok (0, d)

/-- mbus-protocol.c:496-526 `mbus_data_bcd_decode`; with size 0 the test of the most significant digit reads
`bcd_data[-1]` (reported as a fault at index = length). -/
def bcdDecode (d : List Byte) (size : Nat) : C Int := do
  let v ← forDown d size (0 : Int) fun b v => do
    let v ← int64 (v * 10)
    let v ← if b >>> 4 < 0xA then int64 (v + ((b >>> 4 &&& 0xF).toNat : Int)) else .ok v
    let v ← int64 (v * 10)
    int64 (v + ((b &&& 0xF).toNat : Int))
  if size = 0 then .error (.oobRead d.length d.length)
  else do
    let top ← rd d (size - 1)
    if top >>> 4 = 0xF then int64 (v * -1) else .ok v

/-- mbus-protocol.c:533-550 `mbus_data_bcd_decode_hex`: `(val << 8) | b`. -/
def bcdDecodeHex (d : List Byte) (size : Nat) : C Int :=
  forDown d size (0 : Int) fun b v => do
    let s ← int64 (v * 256)
    .ok (s + (b.toNat : Int))

/-! ### strings and binary data -/

/-- `while (len > 0) dst[i++] = src[--len];` -/
def strLoop (src : List Byte) : (len : Nat) → (i : Nat) → List Byte → C (List Byte)
  | 0, _, dst => .ok dst
  | len + 1, i, dst => do
      let b ← rd src len
      let dst ← wr dst i b
      strLoop src len (i + 1) dst

/-- mbus-protocol.c:746-760 `mbus_data_str_decode(dst, src, len)`. -/
def strDecode (dst src : List Byte) (len : Nat) : C (List Byte) := do
  let dst ← wr dst len 0
  strLoop src len 0 dst

/-- mbus-protocol.c:774-778, the loop of `mbus_data_bin_decode`; `n` is `len - i`. -/
def binLoop (src : List Byte) (maxLen : Nat) : (n : Nat) → (pos : Nat) → List Byte → C (List Byte × Nat)
  | 0, pos, dst => .ok (dst, pos)
  | n + 1, pos, dst =>
      if pos + 3 < maxLen then do
        let b ← rd src n
        let t := fmtHex2 b ++ [32]
        let dst ← snprintfAt dst pos (maxLen - pos) t
        binLoop src maxLen n (pos + t.length) dst
      else .ok (dst, pos)

/-- mbus-protocol.c:767-790 `mbus_data_bin_decode(dst, src, len, max_len)`. -/
def binDecode (dst src : List Byte) (len maxLen : Nat) : C (List Byte) := do
  let (dst, pos) ← binLoop src maxLen len 0 dst
  let pos := if pos > 0 then pos - 1 else pos
  wr dst pos 0

/-! ### dates -/

/-- The `struct tm` fields the library sets. -/
structure Tm where
  sec : Int
  min : Int
  hour : Int
  mday : Int
  mon : Int
  year : Int
  isdst : Int
  deriving DecidableEq, Repr

/-- all fields zero (mbus-protocol.c:814-822) -/
def Tm.zero : Tm := ⟨0, 0, 0, 0, 0, 0, 0⟩

/-- mbus-protocol.c:805-867 `mbus_data_tm_decode(t, t_data, t_data_size)`. -/
def tmDecode (d : List Byte) (size : Nat) : C Tm :=
  if size = 6 then do
    let d1 ← rd d 1
    if d1 &&& 0x80 = 0 then do
      let d0 ← rd d 0
      let d2 ← rd d 2
      let d3 ← rd d 3
      let d4 ← rd d 4
      .ok { sec := (d0 &&& 0x3F).toNat, min := (d1 &&& 0x3F).toNat, hour := (d2 &&& 0x1F).toNat,
            mday := (d3 &&& 0x1F).toNat, mon := ((d4 &&& 0x0F).toNat : Int) - 1,
            year := 100 + ((((d3 &&& 0xE0).toNat >>> 5) ||| ((d4 &&& 0xF0).toNat >>> 1) : Nat) : Int),
            isdst := if d0 &&& 0x40 ≠ 0 then 1 else 0 }
    else .ok Tm.zero
  else if size = 4 then do
    let d0 ← rd d 0
    if d0 &&& 0x80 = 0 then do
      let d1 ← rd d 1
      let d2 ← rd d 2
      let d3 ← rd d 3
      let year := ((d2 &&& 0xE0).toNat >>> 5) ||| ((d3 &&& 0xF0).toNat >>> 1)
      let hundred := (d1 &&& 0x60).toNat >>> 5
      let hundred := if hundred = 0 ∧ year ≤ 80 then 1 else hundred
      .ok { sec := 0, min := (d0 &&& 0x3F).toNat, hour := (d1 &&& 0x1F).toNat, mday := (d2 &&& 0x1F).toNat,
            mon := ((d3 &&& 0x0F).toNat : Int) - 1, year := ((100 * hundred + year : Nat) : Int),
            isdst := if d1 &&& 0x80 ≠ 0 then 1 else 0 }
    else .ok Tm.zero
  else if size = 2 then do
    let d0 ← rd d 0
    let d1 ← rd d 1
    .ok { Tm.zero with
          mday := (d0 &&& 0x1F).toNat, mon := ((d1 &&& 0x0F).toNat : Int) - 1,
          year := 100 + ((((d0 &&& 0xE0).toNat >>> 5) ||| ((d1 &&& 0xF0).toNat >>> 1) : Nat) : Int) }
  else .ok Tm.zero

/-! ### manufacturer codes -/

/-- mbus-protocol.c:27-56 `mbus_manufacturer_id(manufacturer)`; the argument is the C string (no NUL inside).
`isalpha`/`toupper` of bytes ≥ 128 (negative `char`) are taken as "not a letter". -/
def manufacturerId (s : List Byte) : Nat :=
  match s with
  | c0 :: c1 :: c2 :: _ =>
    if !isAlpha c0 || !isAlpha c1 || !isAlpha c2 then 0
    else
      let id := ((toUpper c0).toNat - 64) * 32 * 32 + ((toUpper c1).toNat - 64) * 32 + ((toUpper c2).toNat - 64)
      if 0x0421 ≤ id ∧ id ≤ 0x6b5a then id else 0
  | _ => 0

/-- mbus-protocol.c:874-889 `mbus_data_manufacturer_encode(m_data, m_code)`: `m_data` region, `m_code` region.
`((int)c - 64) & 0x1F` is `(c - 64) mod 32` in two's complement. -/
def manufacturerEncode (mData mCode : List Byte) : C (List Byte) := do
  let c0 ← rd mCode 0
  let c1 ← rd mCode 1
  let c2 ← rd mCode 2
  let v : Int := (((c0.toNat : Int) - 64) % 32) * 1024 + (((c1.toNat : Int) - 64) % 32) * 32 +
    (((c2.toNat : Int) - 64) % 32)
  intEncode mData 2 v

/-- mbus-protocol.c:896-914 `mbus_decode_manufacturer(byte1, byte2)`: the three characters of the returned string. -/
def decodeManufacturer (b1 b2 : Byte) : C (List Byte) := do
  let (_, id) ← intDecode [b1, b2, 0, 0] 2
  .ok [UInt8.ofNat (((id >>> 10) % 32 + 64).toNat), UInt8.ofNat (((id >>> 5) % 32 + 64).toNat),
       UInt8.ofNat ((id % 32 + 64).toNat)]

/-! ### XML escaping -/

/-- mbus-protocol.c:4582-4617, the loop of `mbus_str_xml_encode`; `src` is what is left of the source region. -/
def xmlLoop (maxLen : Nat) : (src : List Byte) → (len : Nat) → List Byte → C (List Byte × Nat)
  | [], len, dst => if len + 6 < maxLen then .error (.oobRead 0 0) else .ok (dst, len)
  | c :: rest, len, dst =>
    if len + 6 < maxLen then
      if c = 0 then .ok (dst, len)
      else if isCntrl c then do
        let dst ← wr dst len 32
        xmlLoop maxLen rest (len + 1) dst
      else if c = 38 then do
        let dst ← snprintfAt dst len (maxLen - len) (cs! "&amp;")
        xmlLoop maxLen rest (len + 5) dst
      else if c = 60 then do
        let dst ← snprintfAt dst len (maxLen - len) (cs! "&lt;")
        xmlLoop maxLen rest (len + 4) dst
      else if c = 62 then do
        let dst ← snprintfAt dst len (maxLen - len) (cs! "&gt;")
        xmlLoop maxLen rest (len + 4) dst
      else if c = 34 then do
        let dst ← snprintfAt dst len (maxLen - len) (cs! "&quot;")
        xmlLoop maxLen rest (len + 6) dst
      else do
        let dst ← wr dst len c
        xmlLoop maxLen rest (len + 1) dst
    else .ok (dst, len)

/-- mbus-protocol.c:4563-4621 `mbus_str_xml_encode(dst, src, max_len)` (non-NULL arguments, returns 0). -/
def strXmlEncode (dst src : List Byte) (maxLen : Nat) : C (List Byte) := do
  let (dst, len) ← xmlLoop maxLen src 0 dst
  wr dst len 0

/-! ### hex2bin -/

/-- `strtoul(buf, &end, 16)` for the two-character strings `mbus_hex2bin` builds: `none` when no digit was consumed
(`end == buf`), otherwise the 64-bit value.  Optional leading white space, optional sign, digits; `0x` must be followed
by a hex digit to count as a prefix, which two characters cannot provide. -/
def strtoul2 (c0 c1 : Byte) : Option Nat :=
  if isXDigit c0 then
    if isXDigit c1 then some (hexVal c0 * 16 + hexVal c1) else some (hexVal c0)
  else if isSpace c0 || c0 = 43 then
    if isXDigit c1 then some (hexVal c1) else none
  else if c0 = 45 then
    if isXDigit c1 then some ((2 ^ 64 - hexVal c1) % 2 ^ 64) else none
  else none

/-- mbus-protocol-aux.c:2556-2578, the loop of `mbus_hex2bin` over what is left of the source. -/
def hexLoop (dstLen : Nat) : (src : List Byte) → (result : Nat) → List Byte → C (List Byte × Nat)
  | c0 :: c1 :: rest, result, dst =>
      if isSpace c0 then hexLoop dstLen (c1 :: rest) result dst
      else match strtoul2 c0 c1 with
        | none => .ok (dst, result)
        | some v =>
          if dstLen ≤ result then .ok (dst, result)
          else do
            let dst ← wr dst result (UInt8.ofNat v)
            hexLoop dstLen rest (result + 1) dst
  | _, result, dst => .ok (dst, result)

/-- `memset(dst, 0, n)` -/
def memset0 (dst : List Byte) (n : Nat) : C (List Byte) :=
  if n ≤ dst.length then .ok (List.replicate n 0 ++ dst.drop n) else .error (.oobWrite dst.length dst.length)

/-- mbus-protocol-aux.c:2541-2581 `mbus_hex2bin(dst, dst_len, src, src_len)`; `src` is the `src_len` source bytes. -/
def hex2bin (dst : List Byte) (dstLen : Nat) (src : List Byte) : C (List Byte × Nat) := do
  let dst ← memset0 dst dstLen
  hexLoop dstLen src 0 dst

end Mbus
