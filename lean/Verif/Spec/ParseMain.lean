import Verif.Spec.Messages
import Verif.Spec.Debug
/-
Specification of the programs `mbus_parse` and `mbus_parse_hex`: what is on standard error.
-/
namespace Mbus.Spec

/-- `Lacks bs n`: the bytes `bs` are the beginning of a telegram, and `n` more bytes are needed (to know its length, if that is not known yet) -/
inductive Lacks : List Byte → Nat → Prop
  | short (l : List Byte) : l.length < 4 → Lacks (0x10 :: l) (4 - l.length)
  | start (l : List Byte) : l.length < 2 → Lacks (0x68 :: l) (2 - l.length)
  | length (n : Byte) (l : List Byte) : 3 ≤ n.toNat → l.length < n.toNat + 3 → Lacks (0x68 :: n :: n :: l) (n.toNat + 3 - l.length)

/-- control byte, control information and data of a telegram; 0 and nothing where it has none -/
def appLayer : Telegram → Byte × Byte × List Byte
  | .ack => (0, 0, [])
  | .short c _ => (c, 0, [])
  | .data c _ ci p => (c, ci, p)

/-- the operands: whether values are to be normalised, and the file -/
def operands (normalized : Bool) (file : List Byte) : List (List Byte) := if normalized then [cs! "-n", file] else [file]

/-- the telegram with the checksum byte replaced (a telegram with a length) -/
def withSum (c a ci : Byte) (p : List Byte) (ck : Byte) : List Byte :=
  0x68 :: UInt8.ofNat (p.length + 3) :: UInt8.ofNat (p.length + 3) :: 0x68 :: c :: a :: ci :: (p ++ [ck, 0x16])

end Mbus.Spec
