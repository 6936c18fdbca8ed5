import Verif.Spec.Exact
/-
Specification vocabulary for C111: what the M-Bus documentation (EN1434-3, 8.4.3, 8.4.4; the comments of mbus-protocol-aux.c:60-748) calls the quantities, and
how a printed label is read: name, multiple, unit.  Codes as in Spec/Units.lean.
-/
namespace Mbus.Spec

/-- a range of codes of one quantity: its name in normalised records, and the beginning of its label -/
structure DocName where
  lo : Nat
  hi : Nat
  quantity : List Byte
  head : List Byte

/-- a quantity whose label is its name -/
def same (code : Nat) (name : List Byte) : DocName := ⟨code, code, name, name⟩

def docNames : List DocName := [
  ⟨0x00, 0x0F, cs! "Energy", cs! "Energy ("⟩, ⟨0x10, 0x17, cs! "Volume", cs! "Volume ("⟩, ⟨0x18, 0x1F, cs! "Mass", cs! "Mass ("⟩,
  ⟨0x20, 0x23, cs! "On time", cs! "On time ("⟩, ⟨0x24, 0x27, cs! "Operating time", cs! "Operating time ("⟩, ⟨0x28, 0x37, cs! "Power", cs! "Power ("⟩,
  ⟨0x38, 0x4F, cs! "Volume flow", cs! "Volume flow ("⟩, ⟨0x50, 0x57, cs! "Mass flow", cs! "Mass flow ("⟩,
  ⟨0x58, 0x5B, cs! "Flow temperature", cs! "Flow temperature ("⟩, ⟨0x5C, 0x5F, cs! "Return temperature", cs! "Return temperature ("⟩,
  ⟨0x60, 0x63, cs! "Temperature difference", cs! "Temperature Difference ("⟩, ⟨0x64, 0x67, cs! "External temperature", cs! "External temperature ("⟩,
  ⟨0x68, 0x6B, cs! "Pressure", cs! "Pressure ("⟩, ⟨0x6C, 0x6C, cs! "Time point (date)", cs! "Time Point (date)"⟩,
  ⟨0x6D, 0x6D, cs! "Time point (date & time)", cs! "Time Point (time & date)"⟩, ⟨0x6E, 0x6E, cs! "H.C.A.", cs! "Units for H.C.A."⟩,
  ⟨0x70, 0x73, cs! "Averaging Duration", cs! "Averaging Duration ("⟩, ⟨0x74, 0x77, cs! "Actuality Duration", cs! "Actuality Duration ("⟩,
  ⟨0x78, 0x78, cs! "Fabrication No", cs! "Fabrication number"⟩, ⟨0x79, 0x79, cs! "(Enhanced) Identification", cs! "(Enhanced) Identification"⟩,
  same 0x7A (cs! "Bus Address"), same 0x7E (cs! "Any VIF"), same 0x7F (cs! "Manufacturer specific"),
  ⟨0x100, 0x103, cs! "Credit", cs! "Credit of "⟩, ⟨0x104, 0x107, cs! "Debit", cs! "Debit of "⟩, same 0x108 (cs! "Access Number (transmission count)"),
  ⟨0x109, 0x109, cs! "Medium", cs! "Medium (as in fixed header)"⟩, ⟨0x10A, 0x10A, cs! "Manufacturer", cs! "Manufacturer (as in fixed header)"⟩,
  same 0x10B (cs! "Parameter set identification"), same 0x10C (cs! "Model / Version"), same 0x10D (cs! "Hardware version"),
  same 0x10E (cs! "Firmware version"), same 0x10F (cs! "Software version"), same 0x110 (cs! "Customer location"), same 0x111 (cs! "Customer"),
  same 0x112 (cs! "Access Code User"), same 0x113 (cs! "Access Code Operator"), same 0x114 (cs! "Access Code System Operator"),
  same 0x115 (cs! "Access Code Developer"), same 0x116 (cs! "Password"), same 0x117 (cs! "Error flags"), same 0x118 (cs! "Error mask"),
  ⟨0x11A, 0x11A, cs! "Digital Output", cs! "Digital output (binary)"⟩, ⟨0x11B, 0x11B, cs! "Digital Input", cs! "Digital input (binary)"⟩,
  same 0x11C (cs! "Baudrate"), ⟨0x11D, 0x11D, cs! "Response delay time", cs! "response delay time"⟩, same 0x11E (cs! "Retry"),
  same 0x120 (cs! "First storage # for cyclic storage"), same 0x121 (cs! "Last storage # for cyclic storage"), same 0x122 (cs! "Size of storage block"),
  ⟨0x124, 0x129, cs! "Storage interval", cs! "Storage interval "⟩, ⟨0x12C, 0x12F, cs! "Duration since last readout", cs! "Duration since last readout "⟩,
  same 0x130 (cs! "Start (date/time) of tariff"), ⟨0x131, 0x133, cs! "Duration of tariff", cs! "Duration of tariff "⟩,
  ⟨0x134, 0x139, cs! "Period of tariff", cs! "Period of tariff "⟩, ⟨0x13A, 0x13A, cs! "Dimensionless", cs! "dimensionless / no VIF"⟩,
  ⟨0x140, 0x14F, cs! "Voltage", []⟩, ⟨0x150, 0x15F, cs! "Current", []⟩, same 0x160 (cs! "Reset counter"), same 0x161 (cs! "Cumulation counter"),
  same 0x162 (cs! "Control signal"), same 0x163 (cs! "Day of week"), same 0x164 (cs! "Week number"), same 0x165 (cs! "Time point of day change"),
  same 0x166 (cs! "State of parameter activation"), same 0x167 (cs! "Special supplier information"),
  ⟨0x168, 0x16B, cs! "Duration since last cumulation", cs! "Duration since last cumulation "⟩,
  ⟨0x16C, 0x16F, cs! "Operating time battery", cs! "Operating time battery "⟩, same 0x170 (cs! "Date and time of battery change"),
  ⟨0x200, 0x201, cs! "Energy", cs! "Energy ("⟩, ⟨0x208, 0x209, cs! "Energy", cs! "Energy ("⟩, ⟨0x210, 0x211, cs! "Volume", cs! "Volume ("⟩,
  ⟨0x218, 0x219, cs! "Mass", cs! "Mass ("⟩, ⟨0x221, 0x223, cs! "Volume", cs! "Volume ("⟩, ⟨0x224, 0x226, cs! "Volume flow", cs! "Volume flow ("⟩,
  ⟨0x228, 0x229, cs! "Power", cs! "Power ("⟩, ⟨0x230, 0x231, cs! "Power", cs! "Power ("⟩,
  ⟨0x258, 0x25B, cs! "Flow temperature", cs! "Flow Temperature ("⟩, ⟨0x25C, 0x25F, cs! "Return temperature", cs! "Return Temperature ("⟩,
  ⟨0x260, 0x263, cs! "Temperature difference", cs! "Temperature Difference ("⟩, ⟨0x264, 0x267, cs! "External temperature", cs! "External Temperature ("⟩,
  ⟨0x270, 0x277, cs! "Cold / Warm Temperature Limit", cs! "Cold / Warm Temperature Limit ("⟩,
  ⟨0x278, 0x27F, cs! "Cumul count max power", cs! "cumul. count max power ("⟩]

/-- the documented name of a code -/
def docName (code : Nat) : Option DocName := docNames.find? (fun n => decide (n.lo ≤ code) && decide (code ≤ n.hi))

/-- multiples that may stand before a unit -/
def multiples : List (List Byte × Int) := prefixes ++ [(cs! "0.1 ", -1), (cs! "0.001 ", -3)]

/-- how the units are written in labels: text, how many of the documented unit it means, documented unit -/
def unitWords : List (List Byte × Rat × List Byte) := [
  ([], 1, []),
  (cs! "Wh)", 1, cs! "Wh"), (cs! "MWh)", 1000000, cs! "Wh"), (cs! "J)", 1, cs! "J"), (cs! "GJ)", 1000000000, cs! "J"), (cs! " m^3)", 1, cs! "m^3"), (cs! "m3)", 1, cs! "m^3"),
  (cs! "kg)", 1, cs! "kg"), (cs! "t)", 1000, cs! "kg"), (cs! "W)", 1, cs! "W"), (cs! " W)", 1, cs! "W"), (cs! "MW)", 1000000, cs! "W"), (cs! "J/h)", 1, cs! "J/h"),
  (cs! "GJ/h)", 1000000000, cs! "J/h"), (cs! " m^3/h)", 1, cs! "m^3/h"), (cs! " m^3/min)", 1, cs! "m^3/min"), (cs! " m^3/s)", 1, cs! "m^3/s"), (cs! " kg/h)", 1, cs! "kg/h"),
  (cs! "deg C)", 1, cs! "°C"), (cs! " deg C)", 1, cs! "°C"), (cs! " deg C)", 1, cs! "K"), (cs! " degree C)", 1, cs! "°C"), (cs! " degree F)", 1, cs! "°F"), (cs! " bar)", 1, cs! "bar"),
  (cs! "seconds)", 1, cs! "s"), (cs! "minutes)", 60, cs! "s"), (cs! "hours)", 3600, cs! "s"), (cs! "days)", 86400, cs! "s"),
  (cs! "second(s)", 1, cs! "s"), (cs! "minute(s)", 60, cs! "s"), (cs! "hour(s)", 3600, cs! "s"), (cs! "day(s)", 86400, cs! "s"), (cs! "month(s)", 262974383 / 100, cs! "s"),
  (cs! "months(s)", 262974383 / 100, cs! "s"), (cs! "year(s)", 31556926, cs! "s"), (cs! " of the nominal local legal currency units", 1, cs! "Currency units"),
  (cs! " V", 1, cs! "V"), (cs! " A", 1, cs! "A"), (cs! "feet^3)", 1, cs! "feet^3"), (cs! "american gallon)", 1, cs! "American gallon"),
  (cs! "american gallon/min)", 1, cs! "American gallon/min"), (cs! "american gallon/h)", 1, cs! "American gallon/h")]

/-- `label` is the name `head` with a multiple and a unit that together mean `f` of the unit `u` (a label that shows no unit: 1 of whatever the unit is) -/
def LabelSays (label head : List Byte) (f : Rat) (u : List Byte) : Prop :=
  ∃ p ∈ multiples, ∃ w ∈ unitWords, label = head ++ p.1 ++ w.1 ∧ (10 : Rat) ^ p.2 * w.2.1 = f ∧ (w.2.2 = u ∨ p.1 ++ w.1 = [])

instance (label head : List Byte) (f : Rat) (u : List Byte) : Decidable (LabelSays label head f u) := by unfold LabelSays; infer_instance

end Mbus.Spec
