import Verif.Model.CStr
/-
Specification vocabulary for property C82: the label tables, written by position / by structure instead of by case, from the
comments in mbus-protocol.c:1376-1393, 1468-1503, 1724-1777 and EN 13757-3 section 6.6 (application errors).
-/
namespace Mbus
namespace Spec

/-- Media of fixed-length telegrams, by code (bits 16, 15, 8, 7 of the medium/unit field, most significant first). -/
def fixedMedia : List (List Byte) := [
  cs! "Other", cs! "Oil", cs! "Electricity", cs! "Gas", cs! "Heat", cs! "Steam", cs! "Hot Water", cs! "Water",
  cs! "H.C.A.", cs! "Reserved", cs! "Gas Mode 2", cs! "Heat Mode 2", cs! "Hot Water Mode 2", cs! "Water Mode 2",
  cs! "H.C.A. Mode 2", cs! "Reserved"]

/-- Units of fixed-length telegrams from code 2 on: each unit occupies three codes, for the factors 1, 10, 100. -/
def fixedUnitNames : List (List Byte) := [
  cs! "Wh", cs! "kWh", cs! "MWh", cs! "kJ", cs! "MJ", cs! "GJ", cs! "W", cs! "kW", cs! "MW", cs! "kJ/h", cs! "MJ/h", cs! "GJ/h",
  cs! "ml", cs! "l", cs! "m^3", cs! "ml/h", cs! "l/h", cs! "m^3/h"]

def factors : List (List Byte) := [[], cs! "10 ", cs! "100 "]

/-- The documented label of a six-bit unit code. -/
def fixedUnitLabel (c : Nat) : List Byte :=
  if c = 0 then cs! "h,m,s" else if c = 1 then cs! "D,M,Y"
  else if c < 0x38 then factors.getD ((c - 2) % 3) [] ++ fixedUnitNames.getD ((c - 2) / 3) []
  else if c = 0x38 then cs! "1e-3 °C" else if c = 0x39 then cs! "units for HCA"
  else if c < 0x3E then cs! "reserved" else if c = 0x3E then cs! "reserved but historic" else cs! "without units"

/-- Media of variable-length telegrams: blocks of consecutive codes. -/
def media : List (Nat × List (List Byte)) := [
  (0x00, [cs! "Other", cs! "Oil", cs! "Electricity", cs! "Gas", cs! "Heat: Outlet", cs! "Steam", cs! "Warm water (30-90°C)",
          cs! "Water", cs! "Heat Cost Allocator", cs! "Compressed Air", cs! "Cooling load meter: Outlet",
          cs! "Cooling load meter: Inlet", cs! "Heat: Inlet", cs! "Heat / Cooling load meter", cs! "Bus/System",
          cs! "Unknown Medium"]),
  (0x10, [cs! "Irrigation Water", cs! "Water Logger", cs! "Gas Logger", cs! "Gas Converter", cs! "Calorific value",
          cs! "Hot water (>90°C)", cs! "Cold water", cs! "Dual water", cs! "Pressure", cs! "A/D Converter",
          cs! "Smoke Detector", cs! "Ambient Sensor", cs! "Gas Detector"]),
  (0x20, [cs! "Breaker: Electricity", cs! "Valve: Gas or Water"]),
  (0x25, [cs! "Customer Unit: Display Device"]),
  (0x28, [cs! "Waste Water", cs! "Garbage"]),
  (0x30, [cs! "Service Unit"]),
  (0x36, [cs! "Radio Converter: System", cs! "Radio Converter: Meter"])]

/-- The name assigned to medium code `m`, if any. -/
def mediumName (m : Nat) : Option (List Byte) :=
  media.findSome? fun b => if b.1 ≤ m then b.2[m - b.1]? else none

/-- Unassigned codes the library calls "Reserved": 0x22-0x3F without 0x35. -/
def ReservedMedium (m : Nat) : Prop := 0x22 ≤ m ∧ m ≤ 0x3F ∧ m ≠ 0x35
instance (m : Nat) : Decidable (ReservedMedium m) := by unfold ReservedMedium; infer_instance

/-- General application errors by code. -/
def errors : List (List Byte) := [
  cs! "Unspecified error", cs! "Unimplemented CI-Field", cs! "Buffer too long, truncated", cs! "Too many records",
  cs! "Premature end of record", cs! "More than 10 DIFE´s", cs! "More than 10 VIFE´s", cs! "Reserved", cs! "Application busy",
  cs! "Too many readouts"]

/-- Function field (bits 5 and 4 of the DIF). -/
def functions : List (List Byte) :=
  [cs! "Instantaneous value", cs! "Maximum value", cs! "Minimum value", cs! "Value during error state"]

end Spec
end Mbus
