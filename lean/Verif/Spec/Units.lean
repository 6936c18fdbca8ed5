import Verif.Model.CStr
/-
What the M-Bus documentation (EN1434-3, section 8.4.3 and 8.4.4, repeated in the comments of the C tables) says about
scales and units.  Nothing here refers to the C tables.

A code is: 0x00-0x7F a primary VIF (without extension bit), 0x100-0x17F the VIFE after VIF 0xFD, 0x200-0x27F the VIFE
after VIF 0xFB.
-/
namespace Mbus.Spec

/-- a range of codes `lo .. hi`, with the factor of each code and the unit the factor refers to -/
structure DocRange where
  lo : Nat
  hi : Nat
  /-- factor of code `lo + n` -/
  factor : Nat → Rat
  unit : List Byte

/-- `10^(e+n) unit` for `n = 0 .. hi-lo` -/
def decimal (lo hi : Nat) (e : Int) (unit : List Byte) : DocRange :=
  ⟨lo, hi, fun n => (10 : Rat) ^ (e + (n : Int)), unit⟩
/-- dimensionless numbers -/
def plain (lo hi : Nat) : DocRange := ⟨lo, hi, fun _ => 1, []⟩
/-- length in seconds: seconds, minutes, hours, days, months, years (month and year are the mean values of the project) -/
def seconds : List Rat := [1, 60, 3600, 86400, 262974383 / 100, 31556926]
/-- a duration in seconds; the code `lo` counts units of `seconds[first]` -/
def duration (lo hi first : Nat) : DocRange := ⟨lo, hi, fun n => seconds.getD (first + n) 0, cs! "s"⟩

/-- all codes with a documented scale -/
def docRanges : List DocRange := [
  -- primary VIFs, 8.4.3
  decimal 0x00 0x07 (-3) (cs! "Wh"), decimal 0x08 0x0F 0 (cs! "J"), decimal 0x10 0x17 (-6) (cs! "m^3"),
  decimal 0x18 0x1F (-3) (cs! "kg"), duration 0x20 0x23 0, duration 0x24 0x27 0, decimal 0x28 0x2F (-3) (cs! "W"),
  decimal 0x30 0x37 0 (cs! "J/h"), decimal 0x38 0x3F (-6) (cs! "m^3/h"), decimal 0x40 0x47 (-7) (cs! "m^3/min"),
  decimal 0x48 0x4F (-9) (cs! "m^3/s"), decimal 0x50 0x57 (-3) (cs! "kg/h"), decimal 0x58 0x5B (-3) (cs! "°C"),
  decimal 0x5C 0x5F (-3) (cs! "°C"), decimal 0x60 0x63 (-3) (cs! "K"), decimal 0x64 0x67 (-3) (cs! "°C"),
  decimal 0x68 0x6B (-3) (cs! "bar"), ⟨0x6C, 0x6D, fun _ => 1, cs! "-"⟩, ⟨0x6E, 0x6E, fun _ => 1, cs! "Units for H.C.A."⟩,
  duration 0x70 0x73 0, duration 0x74 0x77 0, plain 0x78 0x7A, plain 0x7E 0x7F,
  -- after 0xFD, 8.4.4 a
  decimal 0x100 0x103 (-3) (cs! "Currency units"), decimal 0x104 0x107 (-3) (cs! "Currency units"), plain 0x108 0x118,
  plain 0x11A 0x11B, ⟨0x11C, 0x11C, fun _ => 1, cs! "Baud"⟩, ⟨0x11D, 0x11D, fun _ => 1, cs! "Bittimes"⟩,
  plain 0x11E 0x11E, plain 0x120 0x122, duration 0x124 0x129 0, duration 0x12C 0x12F 0, duration 0x131 0x133 1,
  duration 0x134 0x139 0, plain 0x13A 0x13A, decimal 0x140 0x14F (-9) (cs! "V"), decimal 0x150 0x15F (-12) (cs! "A"),
  plain 0x160 0x167, duration 0x168 0x16B 2, duration 0x16C 0x16F 2, plain 0x170 0x170,
  -- after 0xFB, 8.4.4 b
  decimal 0x200 0x201 5 (cs! "Wh"), decimal 0x208 0x209 8 (cs! "J"), decimal 0x210 0x211 2 (cs! "m^3"),
  decimal 0x218 0x219 5 (cs! "kg"), decimal 0x221 0x221 (-1) (cs! "feet^3"),
  decimal 0x222 0x223 (-1) (cs! "American gallon"), decimal 0x224 0x224 (-3) (cs! "American gallon/min"),
  decimal 0x225 0x225 0 (cs! "American gallon/min"), decimal 0x226 0x226 0 (cs! "American gallon/h"),
  decimal 0x228 0x229 5 (cs! "W"), decimal 0x230 0x231 8 (cs! "J/h"), decimal 0x258 0x25B (-3) (cs! "°F"),
  decimal 0x25C 0x25F (-3) (cs! "°F"), decimal 0x260 0x263 (-3) (cs! "°F"), decimal 0x264 0x267 (-3) (cs! "°F"),
  decimal 0x270 0x273 (-3) (cs! "°F"), decimal 0x274 0x277 (-3) (cs! "°C"), decimal 0x278 0x27F (-3) (cs! "W")]

/-- the documented factor and unit of a code -/
def docScale (code : Nat) : Option (Rat × List Byte) :=
  (docRanges.find? (fun r => decide (r.lo ≤ code) && decide (code ≤ r.hi))).map
    (fun r => (r.factor (code - r.lo), r.unit))

/-- The codes the normalisation knows at all (documented or reserved): every primary VIF but 7B, 7C, 7D, and every
extension code. -/
def KnownCode (c : Nat) : Prop :=
  c ≤ 0x7A ∨ c = 0x7E ∨ c = 0x7F ∨ (0x100 ≤ c ∧ c ≤ 0x17F) ∨ (0x200 ≤ c ∧ c ≤ 0x27F)

instance (c : Nat) : Decidable (KnownCode c) := by unfold KnownCode; infer_instance

/-! ### reading the labels printed by the library -/

/-- decimal multipliers that may stand before a unit, with the power of ten they mean -/
def multipliers : List (List Byte × Int) :=
  [(cs! "100 ", 2), (cs! "10 ", 1), (cs! "1e-3 ", -3)]

/-- unit texts of the fixed format: text, power of ten, base unit -/
def fixedUnits : List (List Byte × Int × List Byte) := [
  (cs! "Wh", 0, cs! "Wh"), (cs! "kWh", 3, cs! "Wh"), (cs! "MWh", 6, cs! "Wh"),
  (cs! "kJ", 3, cs! "J"), (cs! "MJ", 6, cs! "J"), (cs! "GJ", 9, cs! "J"),
  (cs! "W", 0, cs! "W"), (cs! "kW", 3, cs! "W"), (cs! "MW", 6, cs! "W"),
  (cs! "kJ/h", 3, cs! "J/h"), (cs! "MJ/h", 6, cs! "J/h"), (cs! "GJ/h", 9, cs! "J/h"),
  (cs! "ml", -6, cs! "m^3"), (cs! "l", -3, cs! "m^3"), (cs! "m^3", 0, cs! "m^3"),
  (cs! "ml/h", -6, cs! "m^3/h"), (cs! "l/h", -3, cs! "m^3/h"), (cs! "m^3/h", 0, cs! "m^3/h"), (cs! "°C", 0, cs! "°C")]

/-- Meaning of a fixed-format unit label: factor and base unit; `none` if it is not a physical unit. -/
def readLabel (label : List Byte) : Option (Rat × List Byte) :=
  let m := (multipliers.find? (fun p => p.1.isPrefixOf label)).getD ([], 0)
  (fixedUnits.find? (fun p => p.1 = label.drop m.1.length)).map (fun p => ((10 : Rat) ^ (m.2 + p.2.1), p.2.2))

/-- the documented unit of a fixed-format code 02..38 (EN1434-3 6.6, table in mbus-protocol.c:1469-1502): in groups of
three decades per SI prefix -/
def fixedDoc (code : Nat) : Option (Rat × List Byte) :=
  if 0x02 ≤ code ∧ code ≤ 0x0A then some ((10 : Rat) ^ (code - 0x02), cs! "Wh")
  else if 0x0B ≤ code ∧ code ≤ 0x13 then some ((10 : Rat) ^ (code - 0x0B + 3), cs! "J")
  else if 0x14 ≤ code ∧ code ≤ 0x1C then some ((10 : Rat) ^ (code - 0x14), cs! "W")
  else if 0x1D ≤ code ∧ code ≤ 0x25 then some ((10 : Rat) ^ (code - 0x1D + 3), cs! "J/h")
  else if 0x26 ≤ code ∧ code ≤ 0x2E then some ((10 : Rat) ^ ((code : Int) - 0x26 - 6), cs! "m^3")
  else if 0x2F ≤ code ∧ code ≤ 0x37 then some ((10 : Rat) ^ ((code : Int) - 0x2F - 6), cs! "m^3/h")
  else if code = 0x38 then some ((10 : Rat) ^ (-3 : Int), cs! "°C")
  else none

/-- what the prefixes printed before a unit mean, as powers of ten -/
def prefixes : List (List Byte × Int) := [
  ([], 0), (cs! "k", 3), (cs! "M", 6), (cs! "G", 9), (cs! "m", -3), (cs! "my", -6), (cs! "10 ", 1), (cs! "100 ", 2),
  (cs! "10 k", 4), (cs! "100 k", 5), (cs! "1e7 ", 7), (cs! "1e8 ", 8), (cs! "1e-1 ", -1), (cs! "1e-2 ", -2),
  (cs! "1e-4 ", -4), (cs! "1e-5 ", -5), (cs! "1e-7 ", -7), (cs! "1e-8 ", -8), (cs! "1e-9 ", -9), (cs! "1e-10 ", -10),
  (cs! "1e-11 ", -11), (cs! "1e-12 ", -12)]

/-- the text before and behind the prefix in the label of a primary VIF with decimal scale -/
def labelFrame (code : Nat) : Option (List Byte × List Byte) :=
  if code ≤ 0x07 then some (cs! "Energy (", cs! "Wh)")
  else if code ≤ 0x0F then some (cs! "Energy (", cs! "J)")
  else if code ≤ 0x17 then some (cs! "Volume (", cs! " m^3)")
  else if code ≤ 0x1F then some (cs! "Mass (", cs! "kg)")
  else if code ≤ 0x27 then none
  else if code ≤ 0x2F then some (cs! "Power (", cs! "W)")
  else if code ≤ 0x37 then some (cs! "Power (", cs! "J/h)")
  else if code ≤ 0x3F then some (cs! "Volume flow (", cs! " m^3/h)")
  else if code ≤ 0x47 then some (cs! "Volume flow (", cs! " m^3/min)")
  else if code ≤ 0x4F then some (cs! "Volume flow (", cs! " m^3/s)")
  else if code ≤ 0x57 then some (cs! "Mass flow (", cs! " kg/h)")
  else if code ≤ 0x5B then some (cs! "Flow temperature (", cs! "deg C)")
  else if code ≤ 0x5F then some (cs! "Return temperature (", cs! "deg C)")
  else if code ≤ 0x63 then some (cs! "Temperature Difference (", cs! " deg C)")
  else if code ≤ 0x67 then some (cs! "External temperature (", cs! " deg C)")
  else if code ≤ 0x6B then some (cs! "Pressure (", cs! " bar)")
  else none

end Mbus.Spec
