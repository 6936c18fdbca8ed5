import Verif.Spec.Num
import Verif.Model.Codec
/- EN 1434-3 date/time types as bit fields of one little-endian number. -/
namespace Mbus.Spec

/-- `len` bits of `w` starting at bit `lo`. -/
def bits (w lo len : Nat) : Nat := w / 2 ^ lo % 2 ^ len

/-- Type G (CP16): date.  `struct tm` counts months from 0 and years from 1900. -/
def dateG (w : Nat) : Tm :=
  { sec := 0
    min := 0
    hour := 0
    mday := bits w 0 5
    mon := (bits w 8 4 : Int) - 1
    year := 2000 - 1900 + (bits w 5 3 + 8 * bits w 12 4 : Nat)
    isdst := 0 }

/-- Type F (CP32): date and time; bit 7 = invalid, bit 15 = summer time, bits 13-14 = hundreds of years since 1900.
Two-digit years 0..80 with hundred 0 mean 2000..2080. -/
def dateF (w : Nat) : Tm :=
  if bits w 7 1 = 1 then Tm.zero else
  let y := bits w 21 3 + 8 * bits w 28 4
  let h := bits w 13 2
  { sec := 0
    min := bits w 0 6
    hour := bits w 8 5
    mday := bits w 16 5
    mon := (bits w 24 4 : Int) - 1
    year := if h = 0 ∧ y ≤ 80 then 2000 - 1900 + (y : Int) else 100 * (h : Int) + y
    isdst := bits w 15 1 }

/-- Type I (CP48): date and time with seconds; bit 15 = invalid, bit 6 = summer time. -/
def dateI (w : Nat) : Tm :=
  if bits w 15 1 = 1 then Tm.zero else
  { sec := bits w 0 6
    min := bits w 8 6
    hour := bits w 16 5
    mday := bits w 24 5
    mon := (bits w 32 4 : Int) - 1
    year := 2000 - 1900 + (bits w 29 3 + 8 * bits w 36 4 : Nat)
    isdst := bits w 6 1 }

end Mbus.Spec
