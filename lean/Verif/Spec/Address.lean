import Verif.Base
/-
Specification of addresses, from the documentation of mbus-protocol.h and EN 13757-3: the secondary address of a meter is its
identification number (4 bytes, least significant byte first on the wire), manufacturer (2 bytes), version and medium; as text
it is written as 16 hexadecimal digits, the identification number most significant digit first.
-/
namespace Mbus.Spec

/-- "0123456789ABCDEF" -/
def hexUpper : List Byte := [48, 49, 50, 51, 52, 53, 54, 55, 56, 57, 65, 66, 67, 68, 69, 70]
/-- "0123456789abcdef" -/
def hexLower : List Byte := [48, 49, 50, 51, 52, 53, 54, 55, 56, 57, 97, 98, 99, 100, 101, 102]

/-- the character is a hexadecimal digit -/
def IsHex (c : Byte) : Prop := c ∈ hexUpper ∨ c ∈ hexLower

instance (c : Byte) : Decidable (IsHex c) := by unfold IsHex; infer_instance

/-- value of a hexadecimal digit (16 for other characters) -/
def digitVal (c : Byte) : Nat := if c ∈ hexUpper then hexUpper.idxOf c else hexLower.idxOf c

/-- two upper-case digits -/
def hexPair (b : Byte) : List Byte := [hexUpper.getD (b.toNat / 16) 0, hexUpper.getD (b.toNat % 16) 0]

/-- identification number most significant byte first, the other bytes as they are (its own inverse) -/
def swapId (bs : List Byte) : List Byte := (bs.take 4).reverse ++ bs.drop 4

/-- text of the eight address bytes (in wire order) -/
def addressText (wire : List Byte) : List Byte := (swapId wire).flatMap hexPair

/-- pairs of hexadecimal digits to bytes -/
def hexBytes : List Byte → List Byte
  | a :: b :: r => UInt8.ofNat (16 * digitVal a + digitVal b) :: hexBytes r
  | _ => []

/-- the wire bytes an address text stands for -/
def addressBytes (text : List Byte) : List Byte := swapId (hexBytes text)

/-- identification digits a meter can have or a selection can ask for: decimal digits or the wildcard F -/
def IdDigit (c : Byte) : Prop := digitVal c ≤ 9 ∨ digitVal c = 15

instance (c : Byte) : Decidable (IdDigit c) := by unfold IdDigit; infer_instance

end Mbus.Spec
