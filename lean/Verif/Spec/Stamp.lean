import Verif.Spec.Value
import Verif.Spec.Document
/- Calendar dates and times of UTC, ISO 8601 texts and the POSIX definition of "seconds since the Epoch". -/
namespace Mbus.Spec

/-- A date and time of day. -/
structure Civil where
  year : Nat
  /-- 1 to 12 -/
  month : Nat
  day : Nat
  hour : Nat
  min : Nat
  sec : Nat
  deriving DecidableEq

/-- Gregorian leap years. -/
def Leap (y : Nat) : Prop := (y % 4 = 0 ∧ y % 100 ≠ 0) ∨ y % 400 = 0
instance (y : Nat) : Decidable (Leap y) := by unfold Leap; infer_instance

def monthLength (y : Nat) : Nat → Nat
  | 2 => if Leap y then 29 else 28
  | 4 | 6 | 9 | 11 => 30
  | _ => 31

/-- An existing date from 1970 on with a time of day (without leap seconds). -/
structure Civil.Valid (c : Civil) : Prop where
  year : 1970 ≤ c.year
  month : 1 ≤ c.month ∧ c.month ≤ 12
  day : 1 ≤ c.day ∧ c.day ≤ monthLength c.year c.month
  hour : c.hour < 24
  min : c.min < 60
  sec : c.sec < 60

/-- Days of the year before the first of the month. -/
def daysBefore (y m : Nat) : Nat := ((List.range (m - 1)).map fun i => monthLength y (i + 1)).sum

/-- POSIX.1-2017, Base Definitions 4.16, "Seconds Since the Epoch"; there `tm_year` is `year - 1900` and `tm_yday` is
`daysBefore year month + (day - 1)`. -/
def Civil.seconds (c : Civil) : Int :=
  c.sec + c.min * 60 + c.hour * 3600 + (daysBefore c.year c.month + ((c.day : Int) - 1)) * 86400 +
    ((c.year : Int) - 1970) * 31536000 + ((c.year : Int) - 1969) / 4 * 86400 -
    ((c.year : Int) - 1901) / 100 * 86400 + ((c.year : Int) - 1601) / 400 * 86400

/-- `YYYY-MM-DD`, a separator, `hh:mm:ssZ` -/
def Civil.text (sep : Byte) (c : Civil) : List Byte :=
  dec4 c.year ++ cs! "-" ++ dec2 c.month ++ cs! "-" ++ dec2 c.day ++ [sep] ++ dec2 c.hour ++ cs! ":" ++ dec2 c.min ++ cs! ":" ++
    dec2 c.sec ++ cs! "Z"

/-- The end of year 9999 (in UTC), the last year with four digits. -/
def endOf9999 : Int := 253402300800

/-- The end of the year 2147485547, the last one whose distance from 1900 fits an `int`. -/
def endOfYears : Int := 67768036191676800

/-- `s` is the ISO 8601 text of the UTC time `t`. -/
def IsoText (t : Int) (s : List Byte) : Prop := ∃ c : Civil, c.Valid ∧ c.seconds = t ∧ s = c.text 84

/-- The items of a telegram received at time `t`: every record has the time stamp of the telegram, none if `t` is not positive. -/
def Stamps (t : Int) (its : List Item) : Prop :=
  ∀ it ∈ its, if 0 < t then ∃ s, it.2.2 = some s ∧ IsoText t s else it.2.2 = none

/-- The telegram `f`, received at time `t`, reads as the items `its`. -/
def TimedItems (p : Frame × Int) (its : List Item) : Prop :=
  (∃ h, Reads p.1 h (its.map (·.1))) ∧ Stamps p.2 its

end Mbus.Spec
