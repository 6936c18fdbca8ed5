import Lean
import Verif.Base
/-
C strings, the `ctype.h` predicates and the few `printf` conversions the library uses.
A C string is the list of its bytes without the terminating NUL.
-/
namespace Mbus

open Lean in
/-- `cs! "abc"` is the list of bytes of the UTF-8 encoded literal. -/
macro "cs! " s:str : term => do
  let bs := s.getString.toUTF8.toList
  let elems ← bs.mapM fun b => `(($(Syntax.mkNumLit (toString b.toNat)) : UInt8))
  `(([$(elems.toArray),*] : List UInt8))

/-- printable form of a byte string (for inspection only) -/
def show' (l : List Byte) : String := String.ofList (l.map fun b => Char.ofNat b.toNat)

/-! ### ctype.h in the C locale -/

def isDigit (c : Byte) : Bool := decide (48 ≤ c.toNat) && decide (c.toNat ≤ 57)
def isUpper (c : Byte) : Bool := decide (65 ≤ c.toNat) && decide (c.toNat ≤ 90)
def isLower (c : Byte) : Bool := decide (97 ≤ c.toNat) && decide (c.toNat ≤ 122)
def isAlpha (c : Byte) : Bool := isUpper c || isLower c
def toUpper (c : Byte) : Byte := if isLower c then c - 32 else c
def isXDigit (c : Byte) : Bool :=
  isDigit c || (decide (65 ≤ c.toNat) && decide (c.toNat ≤ 70)) || (decide (97 ≤ c.toNat) && decide (c.toNat ≤ 102))
def isCntrl (c : Byte) : Bool := decide (c.toNat ≤ 31) || decide (c.toNat = 127)
def isSpace (c : Byte) : Bool := decide (c.toNat = 32) || (decide (9 ≤ c.toNat) && decide (c.toNat ≤ 13))

/-- Value of a hexadecimal digit character. -/
def hexVal (c : Byte) : Nat :=
  if c.toNat ≤ 57 then c.toNat - 48 else if c.toNat ≤ 70 then c.toNat - 55 else c.toNat - 87

/-! ### conversions -/

/-- Upper-case hexadecimal digit of a value below 16. -/
def hexDigitU (n : Nat) : Byte := if n < 10 then UInt8.ofNat (48 + n) else UInt8.ofNat (55 + n)
/-- Lower-case hexadecimal digit of a value below 16. -/
def hexDigitL (n : Nat) : Byte := if n < 10 then UInt8.ofNat (48 + n) else UInt8.ofNat (87 + n)

/-- `%.2X` / `%02X` of an `unsigned char`. -/
def fmtHex2 (b : Byte) : List Byte := [hexDigitU (b.toNat / 16), hexDigitU (b.toNat % 16)]
/-- `%.2x` of an `unsigned char`. -/
def fmtHex2L (b : Byte) : List Byte := [hexDigitL (b.toNat / 16), hexDigitL (b.toNat % 16)]

/-- Decimal digits of a natural number, most significant first (`%u`, `%d` of non-negative values). -/
def decDigits (n : Nat) : List Byte :=
  if _h : n < 10 then [UInt8.ofNat (48 + n)] else decDigits (n / 10) ++ [UInt8.ofNat (48 + n % 10)]
termination_by n

/-- Upper-case hexadecimal digits of a natural number, most significant first (`%X`, `%llX`). -/
def hexDigits (n : Nat) : List Byte :=
  if _h : n < 16 then [hexDigitU n] else hexDigits (n / 16) ++ [hexDigitU (n % 16)]
termination_by n

/-- `%d`, `%ld`, `%lld`. -/
def fmtInt (z : Int) : List Byte :=
  if z < 0 then 45 :: decDigits z.natAbs else decDigits z.natAbs

/-- `%.Nd` / `%.Nu` / `%0Nd` for non-negative values: at least `w` digits, zero padded. -/
def padZero (w : Nat) (ds : List Byte) : List Byte := List.replicate (w - ds.length) 48 ++ ds

/-- `snprintf(dst + pos, n, ...)` where the formatted text is `s`: writes at most `n` bytes including the NUL.
(`n` is the mathematical value of the `size_t` argument.) The return value of the C function is `s.length`. -/
def snprintfAt (dst : List Byte) (pos n : Nat) (s : List Byte) : C (List Byte) :=
  if n = 0 then .ok dst
  else
    let t := s.take (n - 1) ++ [0]
    if pos + t.length ≤ dst.length then .ok (dst.take pos ++ t ++ dst.drop (pos + t.length))
    else .error (.oobWrite dst.length (max pos dst.length))

end Mbus
