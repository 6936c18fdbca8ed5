/-
The `double` arithmetic the library uses (IEEE 754 binary64, round to nearest, ties to even).  A finite `double` is given by its sign
and the exact rational magnitude.  Simplification: the exponent is not bounded; the values that occur here have magnitudes between 2^-300 and 2^300 or
are 0 (`C106_range`), where binary64 neither overflows nor loses precision.
-/
namespace Mbus

/-- Nearest integer to `x ≥ 0`, ties to even. -/
def roundEven (x : Rat) : Nat :=
  let f := x.floor.toNat
  let r := x - (f : Rat)
  if r < 1 / 2 then f else if 1 / 2 < r then f + 1 else if f % 2 = 0 then f else f + 1

/-- The binary exponent of `x > 0`: `2^e ≤ x < 2^(e+1)`. -/
def binExp (x : Rat) : Int :=
  let k : Int := (x.num.toNat.log2 : Int) - (x.den.log2 : Int)
  if (2 : Rat) ^ k ≤ x then k else k - 1

/-- `x > 0` rounded to 53 significant bits. -/
def dblPos (x : Rat) : Rat :=
  let u := (2 : Rat) ^ (binExp x - 52)
  (roundEven (x / u) : Rat) * u

/-- The `double` nearest to `x`: the result of every conversion and every arithmetic operation whose exact result is `x`. -/
def dbl (x : Rat) : Rat := if x = 0 then 0 else if x < 0 then -dblPos (-x) else dblPos x

/-- A `float`/`double` value. -/
inductive Flt where
  | fin (neg : Bool) (mag : Rat)
  | inf (neg : Bool)
  | nan (neg : Bool)
  deriving DecidableEq, Repr

/-- A decimal constant, or the conversion of an integer, in C: the nearest `double` (a zero is positive). -/
def Flt.lit (x : Rat) : Flt := .fin (decide (x < 0)) (dbl (if x < 0 then -x else x))

/-- `x * y` in C.  An operand that is not a number is passed on; the not-a-number that infinity times zero makes is negative, as on
x86 (other machines give a positive one). -/
def Flt.mul : Flt → Flt → Flt
  | .nan n, _ => .nan n
  | _, .nan n => .nan n
  | .inf a, .inf b => .inf (a != b)
  | .inf a, .fin b m => if m = 0 then .nan true else .inf (a != b)
  | .fin a m, .inf b => if m = 0 then .nan true else .inf (a != b)
  | .fin a m, .fin b k => .fin (a != b) (dbl (m * k))

/-- `x + y` in C (a sum that is exactly zero is negative only if both operands are). -/
def Flt.add : Flt → Flt → Flt
  | .nan n, _ => .nan n
  | _, .nan n => .nan n
  | .inf a, .inf b => if a = b then .inf a else .nan true
  | .inf a, .fin _ _ => .inf a
  | .fin _ _, .inf b => .inf b
  | .fin a m, .fin b k =>
    let s := (if a then -m else m) + (if b then -k else k)
    if s = 0 then .fin (a && b) 0 else .fin (decide (s < 0)) (dbl (if s < 0 then -s else s))

end Mbus
