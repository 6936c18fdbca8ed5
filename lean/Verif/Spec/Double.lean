/-
Specification of `double` values.
-/
namespace Mbus.Spec

/-- `x` is the value of a `double` (binary64, unbounded exponent): at most 53 significant bits. -/
def IsDouble (x : Rat) : Prop := ∃ (m k : Int), m.natAbs < 2 ^ 53 ∧ x = (m : Rat) * (2 : Rat) ^ k

/-- `x` is the value of a `double` whose last bit is 0. -/
def EvenDouble (x : Rat) : Prop := ∃ (m k : Int), m % 2 = 0 ∧ 2 ^ 52 ≤ m.natAbs ∧ m.natAbs ≤ 2 ^ 53 ∧ x = (m : Rat) * (2 : Rat) ^ k

/-- `y` is at most `e` away from `x` -/
def Near (e x y : Rat) : Prop := y - x ≤ e ∧ x - y ≤ e

/-- the magnitude of a number -/
def mag (x : Rat) : Rat := if x < 0 then -x else x

/-- half the distance from 1 to the next larger `double` -/
def halfUlp : Rat := 1 / 2 ^ 53

/-- A number `v * 10^k` small enough for a `double` to carry its digits: a whole number of at most 53 significant bits, or a fraction of at
most one and a half thousand million. -/
def ExactDigits (v k : Int) : Prop := (0 ≤ k → v.natAbs * 5 ^ k.toNat < 2 ^ 53) ∧ (k < 0 → v.natAbs ≤ 1500000000 * 10 ^ (-k).toNat)

instance (v k : Int) : Decidable (ExactDigits v k) := inferInstanceAs (Decidable (_ ∧ _))

end Mbus.Spec
