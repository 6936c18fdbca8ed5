import Verif.Model.CStr
/- Specification of number, date and text encodings (EN 1434-3 data types), independent of the code's loops. -/
namespace Mbus.Spec

/-- Unsigned little-endian value. -/
def leNat : List Byte → Nat
  | [] => 0
  | b :: bs => b.toNat + 256 * leNat bs

/-- Two's complement little-endian value. -/
def leInt (l : List Byte) : Int :=
  if 2 * leNat l < 256 ^ l.length then leNat l else (leNat l : Int) - 256 ^ l.length

/-- Decimal value of a little-endian packed BCD string (low digit in the low nibble). -/
def bcdNat : List Byte → Nat
  | [] => 0
  | b :: bs => b.toNat % 16 + 10 * (b.toNat / 16) + 100 * bcdNat bs

/-- All nibbles are decimal digits. -/
def IsBcd (l : List Byte) : Prop := ∀ b ∈ l, b.toNat % 16 ≤ 9 ∧ b.toNat / 16 ≤ 9

instance (l : List Byte) : Decidable (IsBcd l) := by unfold IsBcd; infer_instance

/-- FLAG manufacturer number of three capital letters. -/
def flagId (c0 c1 c2 : Byte) : Nat := (c0.toNat - 64) * 1024 + (c1.toNat - 64) * 32 + (c2.toNat - 64)

/-- Capital letter A..Z. -/
def Capital (c : Byte) : Prop := 65 ≤ c.toNat ∧ c.toNat ≤ 90
instance (c : Byte) : Decidable (Capital c) := by unfold Capital; infer_instance

/-- Latin letter. -/
def Letter (c : Byte) : Prop := (65 ≤ c.toNat ∧ c.toNat ≤ 90) ∨ (97 ≤ c.toNat ∧ c.toNat ≤ 122)
instance (c : Byte) : Decidable (Letter c) := by unfold Letter; infer_instance

/-- Upper-case form of a letter. -/
def upper (c : Byte) : Byte := if 97 ≤ c.toNat then c - 32 else c

/-- Dump of bytes, most significant last byte first: "XX XX XX". -/
def hexDump : List Byte → List Byte
  | [] => []
  | [b] => fmtHex2 b
  | b :: bs => fmtHex2 b ++ 32 :: hexDump bs

/-- The XML text of one character. -/
def escape1 (c : Byte) : List Byte :=
  if c = 38 then cs! "&amp;" else if c = 60 then cs! "&lt;" else if c = 62 then cs! "&gt;"
  else if c = 34 then cs! "&quot;" else if c.toNat < 32 ∨ c.toNat = 127 then [32] else [c]

/-- XML escaping of a string. -/
def escape (s : List Byte) : List Byte := s.flatMap escape1

/-- Strict un-escaping: fails on markup characters, control characters and unknown entities. -/
def unescape : List Byte → Option (List Byte)
  | [] => some []
  | 38 :: 97 :: 109 :: 112 :: 59 :: r => (unescape r).map (38 :: ·)          -- &amp;
  | 38 :: 108 :: 116 :: 59 :: r => (unescape r).map (60 :: ·)                 -- &lt;
  | 38 :: 103 :: 116 :: 59 :: r => (unescape r).map (62 :: ·)                 -- &gt;
  | 38 :: 113 :: 117 :: 111 :: 116 :: 59 :: r => (unescape r).map (34 :: ·)   -- &quot;
  | c :: r =>
    if c = 38 ∨ c = 60 ∨ c = 62 ∨ c = 34 ∨ c.toNat < 32 ∨ c.toNat = 127 then none
    else (unescape r).map (c :: ·)

/-- Control characters become spaces. -/
def blank (c : Byte) : Byte := if c.toNat < 32 ∨ c.toNat = 127 then 32 else c

/-- `HexText src bs`: `src` is a hexadecimal text of the bytes `bs` - two hex digits per byte (any case), white space
anywhere between bytes. -/
inductive HexText : List Byte → List Byte → Prop
  | nil : HexText [] []
  | space {c : Byte} {src bs : List Byte} : isSpace c → HexText src bs → HexText (c :: src) bs
  | byte {c0 c1 : Byte} {src bs : List Byte} : isXDigit c0 → isXDigit c1 → HexText src bs →
      HexText (c0 :: c1 :: src) (UInt8.ofNat (hexVal c0 * 16 + hexVal c1) :: bs)

end Mbus.Spec
