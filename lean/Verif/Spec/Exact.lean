import Verif.Spec.Double
import Verif.Spec.Units
import Verif.Spec.Value
/-
Specification of the physical value of a record in exact arithmetic, and of its decimal text.
-/
namespace Mbus.Spec

/-- the value of a finite `double` -/
def valueOf : Flt → Option Rat
  | .fin neg m => some (if neg then -m else m)
  | _ => none

/-- the number a record carries, exactly -/
def Meaning.exact : Meaning → Option Rat
  | .int v => some (v : Rat)
  | .bcd ds => some (bcdValue ds : Rat)
  | .real x => valueOf x
  | _ => none

/-- the whole number a record carries -/
def Meaning.whole : Meaning → Option Int
  | .int v => some v
  | .bcd ds => some (bcdValue ds)
  | _ => none

/-- the first VIFE without its extension bit (0 in a record without VIFE) -/
def firstVife (r : Record) : Nat := (r.vife.bytes.headD 0).toNat % 128

/-- the code of Spec/Units.lean that gives the scale of a record; none for custom VIFs (0x7C, 0xFC) -/
def scaleCode (r : Record) : Option Nat :=
  if r.vif = 0xFD then some (0x100 + firstVife r)
  else if r.vif = 0xFB then some (0x200 + firstVife r)
  else if r.vif = 0x7C ∨ r.vif = 0xFC then none
  else some (r.vif.toNat % 128)

/-- what the first VIFE does to the scaled value (EN1434-3, 8.4.5) -/
inductive Correction where
  | none
  /-- times 10^k -/
  | times (k : Int)
  /-- plus 10^k -/
  | plus (k : Int)
  deriving DecidableEq

def correctionOf (r : Record) : Correction :=
  let c := firstVife r
  if r.vif.toNat < 0x80 ∨ r.vif = 0xFD ∨ r.vif = 0xFB then .none
  else if 0x70 ≤ c ∧ c ≤ 0x77 then .times ((c : Int) - 0x70 - 6)
  else if 0x78 ≤ c ∧ c ≤ 0x7B then .plus ((c : Int) - 0x78 - 3)
  else if c = 0x7D then .times 3
  else .none

/-- the physical value of the number `q` with the factor `f` and a correction -/
def physical (q f : Rat) : Correction → Rat
  | .none => q * f
  | .times k => q * f * (10 : Rat) ^ k
  | .plus k => q * f + (10 : Rat) ^ k

/-- its size: the magnitudes of its parts -/
def physicalSize (q f : Rat) : Correction → Rat
  | .none => mag (q * f)
  | .times k => mag (q * f * (10 : Rat) ^ k)
  | .plus k => mag (q * f) + (10 : Rat) ^ k

/-- `v * 10^k` (for k ≥ -6) with six decimals -/
def decimalText (v k : Int) : List Byte :=
  let n := v.natAbs * 10 ^ (k + 6).toNat
  (if v < 0 then cs! "-" else []) ++ decDigits (n / 1000000) ++ cs! "." ++ padZero 6 (decDigits (n % 1000000))

end Mbus.Spec

namespace Mbus.Spec

/-- A finite value is 0 or has a magnitude between 2^-300 and 2^300, far inside the range of binary64 (normal numbers go from 2^-1022 to
2^1024). -/
def InRange (x : Flt) : Prop := ∀ neg m, x = .fin neg m → m = 0 ∨ ((2 : Rat) ^ (-300 : Int) ≤ m ∧ m ≤ 2 ^ 300)

end Mbus.Spec
