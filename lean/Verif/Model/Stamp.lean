import Verif.Model.Xml
/-
Model of the time stamps: mbus-protocol.c:4724-4730 (XML) and 4526-4533 (`mbus_hex_dump`), with the functions `gmtime` and `strftime`
of the C library, as POSIX describes them.  A telegram's time stamp is set by `mbus_recv_frame` (mbus-protocol-aux.c:1705-1709) and
copied to its records (mbus-protocol.c:3841).
-/
namespace Mbus

def gmLeap (y : Nat) : Bool := y % 4 == 0 && (y % 100 != 0 || y % 400 == 0)

/-- the lengths of the months -/
def gmMonths (y : Nat) : List Nat := [31, if gmLeap y then 29 else 28, 31, 30, 31, 30, 31, 31, 30, 31, 30, 31]

def gmYearDays (y : Nat) : Nat := if gmLeap y then 366 else 365

theorem gmYearDays_pos (y : Nat) : 0 < gmYearDays y := by unfold gmYearDays; split <;> decide

/-- take away whole years, beginning with year `y` -/
def gmYear (y days : Nat) : Nat × Nat :=
  if h : days < gmYearDays y then (y, days) else
    have : days - gmYearDays y < days := by have := gmYearDays_pos y; omega
    gmYear (y + 1) (days - gmYearDays y)
termination_by days

/-- take away whole months; `m` months have been counted -/
def gmMonth : List Nat → (m day : Nat) → Nat × Nat
  | [], m, day => (m, day)
  | n :: ns, m, day => if day < n then (m, day) else gmMonth ns (m + 1) (day - n)

/-- the C library's `gmtime` for times since 1970; NULL (`none`) when the year does not fit `tm_year` -/
def gmtime (t : Nat) : Option Tm :=
  let y := gmYear 1970 (t / 86400)
  let m := gmMonth (gmMonths y.1) 0 y.2
  if y.1 - 1900 < 2 ^ 31 then
    some { sec := t % 60, min := t / 60 % 60, hour := t / 3600 % 24, mday := m.2 + 1, mon := m.1, year := (y.1 : Int) - 1900, isdst := 0 }
  else none

/-- the text of `strftime` for the format `%Y-%m-%d`, the character `sep`, `%H:%M:%SZ` -/
def stampFormat (sep : Byte) (t : Tm) : List Byte :=
  fmtInt (t.year + 1900) ++ cs! "-" ++ padZero 2 (fmtInt (t.mon + 1)) ++ cs! "-" ++ padZero 2 (fmtInt t.mday) ++ [sep] ++
    padZero 2 (fmtInt t.hour) ++ cs! ":" ++ padZero 2 (fmtInt t.min) ++ cs! ":" ++ padZero 2 (fmtInt t.sec) ++ cs! "Z"

/-- `strftime(mem, max, ...)`: when the text and its NUL do not fit `max` bytes the content of the array is indeterminate; here it
is what the (uninitialised, hence arbitrary) array contained. -/
def strftimeInto (mem : List Byte) (max : Nat) (s : List Byte) : List Byte :=
  if s.length + 1 ≤ max then s ++ [0] ++ mem.drop (s.length + 1) else mem

/-- mbus-protocol.c:4726-4727 and 4530-4532: `char timestamp[22]`, `gmtime`, `strftime(timestamp, 21, ...)` (which reads through the
result of `gmtime`), and the C string in the array. -/
def stampText (junk : Nat → Byte) (sep : Byte) (t : Nat) : C (List Byte) :=
  match gmtime t with
  | none => .error .null
  | some tm => cstr (strftimeInto (malloc junk 22) 21 (stampFormat sep tm))

/-- mbus-protocol.c:4724: only positive times are printed (`time_t` is signed). -/
def recordStamp (junk : Nat → Byte) (t : Int) : C (Option (List Byte)) :=
  if 0 < t then do
    let s ← stampText junk 84 t.toNat
    .ok (some s)
  else .ok none

/-- the telegrams of a chain with the texts of their time stamps -/
def stampAll (junk : Nat → Byte) : List (Frame × Int) → C (List Telegram)
  | [] => .ok []
  | (f, t) :: ts => do
      let s ← recordStamp junk t
      let r ← stampAll junk ts
      .ok ((f, s) :: r)

/-- `mbus_frame_xml` (mbus-protocol.c:4931-5073) for frames with their field `timestamp`.  Simplification: the texts of the time stamps are
made before the document, not record by record. -/
def timedXml (junk0 : Nat → Byte) (junk : Nat → Nat → Byte) (junkT : Nat → Byte) (t : Frame × Int) (ts : List (Frame × Int)) : C XmlOut := do
  let s ← recordStamp junkT t.2
  let r ← stampAll junkT ts
  frameXml junk0 junk (t.1, s) r

end Mbus
