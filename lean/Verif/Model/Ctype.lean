import Verif.Model.Codec
/-
`mbus_manufacturer_id` and `mbus_hex2bin` with the character classes of the host program's locale as a parameter (Model/Codec has them in the
"C" locale; `C136_c_locale` proves that they agree there).
Simplifications: those of Model/Codec; the locale does not change during a call.  `isalpha` and `toupper` are called with a plain `char`
(mbus-protocol.c:40-47): for bytes from 128 on that is a negative number, for which ISO C defines nothing; as in glibc the functions are taken to
classify the byte.
-/
namespace Mbus

/-- What the two functions see of a locale: `isalpha`, `isspace` and the number `toupper` returns (mbus-protocol.c:40-47,
mbus-protocol-aux.c:2559). -/
structure Ctype where
  alpha : Byte → Bool
  space : Byte → Bool
  upper : Byte → Int

/-- The "C" locale (ISO C 7.4, 7.11.1.1; mbus-protocol.c:40-47, mbus-protocol-aux.c:2559). -/
def Ctype.c : Ctype := ⟨isAlpha, isSpace, fun b => (toUpper b).toNat⟩

/-- mbus-protocol.c:27-56 `mbus_manufacturer_id(manufacturer)` in locale `T`: the `int` sum is converted to `unsigned int`. -/
def manufacturerIdIn (T : Ctype) (s : List Byte) : Nat :=
  match s with
  | c0 :: c1 :: c2 :: _ =>
    if !T.alpha c0 || !T.alpha c1 || !T.alpha c2 then 0
    else
      let id := (((T.upper c0 - 64) * 32 * 32 + (T.upper c1 - 64) * 32 + (T.upper c2 - 64)) % 2 ^ 32).toNat
      if 0x0421 ≤ id ∧ id ≤ 0x6b5a then id else 0
  | _ => 0

/-- `strtoul(buf, &end, 16)` of two characters (`strtoul2` of Model/Codec) in locale `T`; mbus-protocol-aux.c:2567. -/
def strtoul2In (T : Ctype) (c0 c1 : Byte) : Option Nat :=
  if isXDigit c0 then
    if isXDigit c1 then some (hexVal c0 * 16 + hexVal c1) else some (hexVal c0)
  else if T.space c0 || c0 = 43 then
    if isXDigit c1 then some (hexVal c1) else none
  else if c0 = 45 then
    if isXDigit c1 then some ((2 ^ 64 - hexVal c1) % 2 ^ 64) else none
  else none

/-- mbus-protocol-aux.c:2556-2578, the loop of `mbus_hex2bin` in locale `T`. -/
def hexLoopIn (T : Ctype) (dstLen : Nat) : (src : List Byte) → (result : Nat) → List Byte → C (List Byte × Nat)
  | c0 :: c1 :: rest, result, dst =>
      if T.space c0 then hexLoopIn T dstLen (c1 :: rest) result dst
      else match strtoul2In T c0 c1 with
        | none => .ok (dst, result)
        | some v =>
          if dstLen ≤ result then .ok (dst, result)
          else do
            let dst ← wr dst result (UInt8.ofNat v)
            hexLoopIn T dstLen rest (result + 1) dst
  | _, result, dst => .ok (dst, result)

/-- mbus-protocol-aux.c:2541-2581 `mbus_hex2bin(dst, dst_len, src, src_len)` in locale `T`. -/
def hex2binIn (T : Ctype) (dst : List Byte) (dstLen : Nat) (src : List Byte) : C (List Byte × Nat) := do
  let dst ← memset0 dst dstLen
  hexLoopIn T dstLen src 0 dst

end Mbus
