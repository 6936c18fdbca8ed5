import Verif.Spec.Value
/-
The order of dates and times.
-/
namespace Mbus.Spec

/-- The day `a` is before the day `b`. -/
def DayBefore (a b : Tm) : Prop :=
  a.year < b.year ∨ (a.year = b.year ∧ (a.mon < b.mon ∨ (a.mon = b.mon ∧ a.mday < b.mday)))
/-- `a` and `b` are on the same day. -/
def SameDay (a b : Tm) : Prop := a.year = b.year ∧ a.mon = b.mon ∧ a.mday = b.mday
/-- The time `a` is before the time `b`. -/
def TimeBefore (a b : Tm) : Prop :=
  DayBefore a b ∨ (SameDay a b ∧
    (a.hour < b.hour ∨ (a.hour = b.hour ∧ (a.min < b.min ∨ (a.min = b.min ∧ a.sec < b.sec)))))
/-- `a` and `b` are the same time. -/
def SameTime (a b : Tm) : Prop := SameDay a b ∧ a.hour = b.hour ∧ a.min = b.min ∧ a.sec = b.sec

/-- The date of a 2-byte date record. -/
def dayOf (r : Record) : Tm := dateG (leNat (r.data.bytes.take 2))
/-- The time of a 4- or 6-byte date-and-time record. -/
def timeOf (r : Record) : Tm :=
  if r.dif.toNat % 16 = 4 then dateF (leNat (r.data.bytes.take 4)) else dateI (leNat (r.data.bytes.take 6))
/-- The meter marked the time of the record as invalid. -/
def TimeInvalid (r : Record) : Prop :=
  if r.dif.toNat % 16 = 4 then bits (leNat (r.data.bytes.take 4)) 7 1 = 1 else bits (leNat (r.data.bytes.take 6)) 15 1 = 1

end Mbus.Spec
