import Verif.Spec.Value
/-
Reading a printed decimal number.
-/
namespace Mbus.Spec

/-- The value of digits, a point and digits. -/
def readUnsigned (l : List Byte) : Option Rat :=
  (readNat (l.takeWhile (· ≠ 46))).bind fun a =>
    (readNat ((l.dropWhile (· ≠ 46)).drop 1)).map fun b => (a : Rat) + (b : Rat) / (10 : Rat) ^ ((l.dropWhile (· ≠ 46)).drop 1).length

/-- The value of a decimal number with a point, with or without a minus sign. -/
def readDecimal : List Byte → Option Rat
  | 45 :: l => (readUnsigned l).map fun x => -x
  | l => readUnsigned l

end Mbus.Spec
