import Verif.Model.CStr
/-
Constant labels of mbus/mbus-protocol.c, transcribed by tools/gen_labels.py: one row (case value, label) per `case`, in
the order of the C switch.
-/
namespace Mbus

/-- mbus-protocol.c:1406-1455 cases of `mbus_data_fixed_medium` -/
def fixedMediumCases : List (Nat × List Byte) := [
  (0x00, cs! "Other"),
  (0x01, cs! "Oil"),
  (0x02, cs! "Electricity"),
  (0x03, cs! "Gas"),
  (0x04, cs! "Heat"),
  (0x05, cs! "Steam"),
  (0x06, cs! "Hot Water"),
  (0x07, cs! "Water"),
  (0x08, cs! "H.C.A."),
  (0x09, cs! "Reserved"),
  (0x0A, cs! "Gas Mode 2"),
  (0x0B, cs! "Heat Mode 2"),
  (0x0C, cs! "Hot Water Mode 2"),
  (0x0D, cs! "Water Mode 2"),
  (0x0E, cs! "H.C.A. Mode 2"),
  (0x0F, cs! "Reserved")]

/-- mbus-protocol.c:1514-1710 cases of `mbus_data_fixed_unit` -/
def fixedUnitCases : List (Nat × List Byte) := [
  (0x00, cs! "h,m,s"),
  (0x01, cs! "D,M,Y"),
  (0x02, cs! "Wh"),
  (0x03, cs! "10 Wh"),
  (0x04, cs! "100 Wh"),
  (0x05, cs! "kWh"),
  (0x06, cs! "10 kWh"),
  (0x07, cs! "100 kWh"),
  (0x08, cs! "MWh"),
  (0x09, cs! "10 MWh"),
  (0x0A, cs! "100 MWh"),
  (0x0B, cs! "kJ"),
  (0x0C, cs! "10 kJ"),
  (0x0E, cs! "100 kJ"),
  (0x0D, cs! "MJ"),
  (0x0F, cs! "10 MJ"),
  (0x10, cs! "100 MJ"),
  (0x11, cs! "GJ"),
  (0x12, cs! "10 GJ"),
  (0x13, cs! "100 GJ"),
  (0x14, cs! "W"),
  (0x15, cs! "10 W"),
  (0x16, cs! "100 W"),
  (0x17, cs! "kW"),
  (0x18, cs! "10 kW"),
  (0x19, cs! "100 kW"),
  (0x1A, cs! "MW"),
  (0x1B, cs! "10 MW"),
  (0x1C, cs! "100 MW"),
  (0x1D, cs! "kJ/h"),
  (0x1E, cs! "10 kJ/h"),
  (0x1F, cs! "100 kJ/h"),
  (0x20, cs! "MJ/h"),
  (0x21, cs! "10 MJ/h"),
  (0x22, cs! "100 MJ/h"),
  (0x23, cs! "GJ/h"),
  (0x24, cs! "10 GJ/h"),
  (0x25, cs! "100 GJ/h"),
  (0x26, cs! "ml"),
  (0x27, cs! "10 ml"),
  (0x28, cs! "100 ml"),
  (0x29, cs! "l"),
  (0x2A, cs! "10 l"),
  (0x2B, cs! "100 l"),
  (0x2C, cs! "m^3"),
  (0x2D, cs! "10 m^3"),
  (0x2E, cs! "100 m^3"),
  (0x2F, cs! "ml/h"),
  (0x30, cs! "10 ml/h"),
  (0x31, cs! "100 ml/h"),
  (0x32, cs! "l/h"),
  (0x33, cs! "10 l/h"),
  (0x34, cs! "100 l/h"),
  (0x35, cs! "m^3/h"),
  (0x36, cs! "10 m^3/h"),
  (0x37, cs! "100 m^3/h"),
  (0x38, cs! "1e-3 °C"),
  (0x39, cs! "units for HCA"),
  (0x3A, cs! "reserved"),
  (0x3B, cs! "reserved"),
  (0x3C, cs! "reserved"),
  (0x3D, cs! "reserved"),
  (0x3E, cs! "reserved but historic"),
  (0x3F, cs! "without units")]

/-- mbus-protocol.c:1786-1964 cases of `mbus_data_variable_medium_lookup` -/
def mediumCases : List (Nat × List Byte) := [
  (0x00, cs! "Other"),
  (0x01, cs! "Oil"),
  (0x02, cs! "Electricity"),
  (0x03, cs! "Gas"),
  (0x04, cs! "Heat: Outlet"),
  (0x05, cs! "Steam"),
  (0x06, cs! "Warm water (30-90°C)"),
  (0x07, cs! "Water"),
  (0x08, cs! "Heat Cost Allocator"),
  (0x09, cs! "Compressed Air"),
  (0x0A, cs! "Cooling load meter: Outlet"),
  (0x0B, cs! "Cooling load meter: Inlet"),
  (0x0C, cs! "Heat: Inlet"),
  (0x0D, cs! "Heat / Cooling load meter"),
  (0x0E, cs! "Bus/System"),
  (0x0F, cs! "Unknown Medium"),
  (0x10, cs! "Irrigation Water"),
  (0x11, cs! "Water Logger"),
  (0x12, cs! "Gas Logger"),
  (0x13, cs! "Gas Converter"),
  (0x14, cs! "Calorific value"),
  (0x15, cs! "Hot water (>90°C)"),
  (0x16, cs! "Cold water"),
  (0x17, cs! "Dual water"),
  (0x18, cs! "Pressure"),
  (0x19, cs! "A/D Converter"),
  (0x1A, cs! "Smoke Detector"),
  (0x1B, cs! "Ambient Sensor"),
  (0x1C, cs! "Gas Detector"),
  (0x20, cs! "Breaker: Electricity"),
  (0x21, cs! "Valve: Gas or Water"),
  (0x25, cs! "Customer Unit: Display Device"),
  (0x28, cs! "Waste Water"),
  (0x29, cs! "Garbage"),
  (0x30, cs! "Service Unit"),
  (0x36, cs! "Radio Converter: System"),
  (0x37, cs! "Radio Converter: Meter"),
  (0x22, cs! "Reserved"),
  (0x23, cs! "Reserved"),
  (0x24, cs! "Reserved"),
  (0x26, cs! "Reserved"),
  (0x27, cs! "Reserved"),
  (0x2A, cs! "Reserved"),
  (0x2B, cs! "Reserved"),
  (0x2C, cs! "Reserved"),
  (0x2D, cs! "Reserved"),
  (0x2E, cs! "Reserved"),
  (0x2F, cs! "Reserved"),
  (0x31, cs! "Reserved"),
  (0x32, cs! "Reserved"),
  (0x33, cs! "Reserved"),
  (0x34, cs! "Reserved"),
  (0x38, cs! "Reserved"),
  (0x39, cs! "Reserved"),
  (0x3A, cs! "Reserved"),
  (0x3B, cs! "Reserved"),
  (0x3C, cs! "Reserved"),
  (0x3D, cs! "Reserved"),
  (0x3E, cs! "Reserved"),
  (0x3F, cs! "Reserved")]

/-- mbus-protocol.c:2420-2462 cases of `mbus_data_error_lookup` -/
def errorCases : List (Nat × List Byte) := [
  (0x00, cs! "Unspecified error"),
  (0x01, cs! "Unimplemented CI-Field"),
  (0x02, cs! "Buffer too long, truncated"),
  (0x03, cs! "Too many records"),
  (0x04, cs! "Premature end of record"),
  (0x05, cs! "More than 10 DIFE´s"),
  (0x06, cs! "More than 10 VIFE´s"),
  (0x07, cs! "Reserved"),
  (0x08, cs! "Application busy"),
  (0x09, cs! "Too many readouts")]

end Mbus
