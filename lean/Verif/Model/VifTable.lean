import Verif.Model.CStr
/-
The normalisation tables of mbus/mbus-protocol-aux.c:35-748, transcribed by tools/gen_tables.py (one row per C row, in
the order of the C array; the terminating row 0xFFFF is represented by the end of the list).  Simplification: the
`double` column is the exact rational of the decimal literal.
-/
namespace Mbus
namespace VifTable

def s_Wh : List Byte := cs! "Wh"
def s_Energy : List Byte := cs! "Energy"
def s_J : List Byte := cs! "J"
def s_m_3 : List Byte := cs! "m^3"
def s_Volume : List Byte := cs! "Volume"
def s_kg : List Byte := cs! "kg"
def s_Mass : List Byte := cs! "Mass"
def s_s : List Byte := cs! "s"
def s_On_time : List Byte := cs! "On time"
def s_Operating_time : List Byte := cs! "Operating time"
def s_W : List Byte := cs! "W"
def s_Power : List Byte := cs! "Power"
def s_J_h : List Byte := cs! "J/h"
def s_m_3_h : List Byte := cs! "m^3/h"
def s_Volume_flow : List Byte := cs! "Volume flow"
def s_m_3_min : List Byte := cs! "m^3/min"
def s_m_3_s : List Byte := cs! "m^3/s"
def s_kg_h : List Byte := cs! "kg/h"
def s_Mass_flow : List Byte := cs! "Mass flow"
def s_degC : List Byte := cs! "°C"
def s_Flow_temperature : List Byte := cs! "Flow temperature"
def s_Return_temperature : List Byte := cs! "Return temperature"
def s_K : List Byte := cs! "K"
def s_Temperature_difference : List Byte := cs! "Temperature difference"
def s_External_temperature : List Byte := cs! "External temperature"
def s_bar : List Byte := cs! "bar"
def s_Pressure : List Byte := cs! "Pressure"
def s_ : List Byte := cs! "-"
def s_Time_point_date : List Byte := cs! "Time point (date)"
def s_Time_point_date_time : List Byte := cs! "Time point (date & time)"
def s_Units_for_H_C_A : List Byte := cs! "Units for H.C.A."
def s_H_C_A : List Byte := cs! "H.C.A."
def s_Reserved : List Byte := cs! "Reserved"
def s_Averaging_Duration : List Byte := cs! "Averaging Duration"
def s_Actuality_Duration : List Byte := cs! "Actuality Duration"
def s_x : List Byte := cs! ""
def s_Fabrication_No : List Byte := cs! "Fabrication No"
def s_Enhanced_Identification : List Byte := cs! "(Enhanced) Identification"
def s_Bus_Address : List Byte := cs! "Bus Address"
def s_Any_VIF : List Byte := cs! "Any VIF"
def s_Manufacturer_specific : List Byte := cs! "Manufacturer specific"
def s_Currency_units : List Byte := cs! "Currency units"
def s_Credit : List Byte := cs! "Credit"
def s_Debit : List Byte := cs! "Debit"
def s_Access_Number_transmission_count : List Byte := cs! "Access Number (transmission count)"
def s_Medium : List Byte := cs! "Medium"
def s_Manufacturer : List Byte := cs! "Manufacturer"
def s_Parameter_set_identification : List Byte := cs! "Parameter set identification"
def s_Model_Version : List Byte := cs! "Model / Version"
def s_Hardware_version : List Byte := cs! "Hardware version"
def s_Firmware_version : List Byte := cs! "Firmware version"
def s_Software_version : List Byte := cs! "Software version"
def s_Customer_location : List Byte := cs! "Customer location"
def s_Customer : List Byte := cs! "Customer"
def s_Access_Code_User : List Byte := cs! "Access Code User"
def s_Access_Code_Operator : List Byte := cs! "Access Code Operator"
def s_Access_Code_System_Operator : List Byte := cs! "Access Code System Operator"
def s_Access_Code_Developer : List Byte := cs! "Access Code Developer"
def s_Password : List Byte := cs! "Password"
def s_Error_flags : List Byte := cs! "Error flags"
def s_Error_mask : List Byte := cs! "Error mask"
def s_Digital_Output : List Byte := cs! "Digital Output"
def s_Digital_Input : List Byte := cs! "Digital Input"
def s_Baud : List Byte := cs! "Baud"
def s_Baudrate : List Byte := cs! "Baudrate"
def s_Bittimes : List Byte := cs! "Bittimes"
def s_Response_delay_time : List Byte := cs! "Response delay time"
def s_Retry : List Byte := cs! "Retry"
def s_First_storage_for_cyclic_storage : List Byte := cs! "First storage # for cyclic storage"
def s_Last_storage_for_cyclic_storage : List Byte := cs! "Last storage # for cyclic storage"
def s_Size_of_storage_block : List Byte := cs! "Size of storage block"
def s_Storage_interval : List Byte := cs! "Storage interval"
def s_Duration_since_last_readout : List Byte := cs! "Duration since last readout"
def s_Duration_of_tariff : List Byte := cs! "Duration of tariff"
def s_Period_of_tariff : List Byte := cs! "Period of tariff"
def s_Dimensionless : List Byte := cs! "Dimensionless"
def s_V : List Byte := cs! "V"
def s_Voltage : List Byte := cs! "Voltage"
def s_A : List Byte := cs! "A"
def s_Current : List Byte := cs! "Current"
def s_Reset_counter : List Byte := cs! "Reset counter"
def s_Cumulation_counter : List Byte := cs! "Cumulation counter"
def s_Control_signal : List Byte := cs! "Control signal"
def s_Day_of_week : List Byte := cs! "Day of week"
def s_Week_number : List Byte := cs! "Week number"
def s_Time_point_of_day_change : List Byte := cs! "Time point of day change"
def s_State_of_parameter_activation : List Byte := cs! "State of parameter activation"
def s_Special_supplier_information : List Byte := cs! "Special supplier information"
def s_Duration_since_last_cumulation : List Byte := cs! "Duration since last cumulation"
def s_Operating_time_battery : List Byte := cs! "Operating time battery"
def s_Date_and_time_of_battery_change : List Byte := cs! "Date and time of battery change"
def s_feet_3 : List Byte := cs! "feet^3"
def s_American_gallon : List Byte := cs! "American gallon"
def s_American_gallon_min : List Byte := cs! "American gallon/min"
def s_American_gallon_h : List Byte := cs! "American gallon/h"
def s_degF : List Byte := cs! "°F"
def s_Cold_Warm_Temperature_Limit : List Byte := cs! "Cold / Warm Temperature Limit"
def s_Cumul_count_max_power : List Byte := cs! "Cumul count max power"
def s_Temperature : List Byte := cs! "Temperature"
def s_historic : List Byte := cs! "historic"
def s_No_units : List Byte := cs! "No units"

end VifTable
open VifTable

/-- mbus-protocol-aux.c:35-40 `mbus_variable_vif` -/
structure VifRow where
  vif : Nat
  exponent : Rat
  unit : List Byte
  quantity : List Byte
  deriving DecidableEq

/-- mbus-protocol-aux.c:42-669 `vif_table`, rows 0-63 -/
def vifTable0 : List VifRow := [
  ⟨0x00, 1/1000, s_Wh, s_Energy⟩,
  ⟨0x01, 1/100, s_Wh, s_Energy⟩,
  ⟨0x02, 1/10, s_Wh, s_Energy⟩,
  ⟨0x03, 1, s_Wh, s_Energy⟩,
  ⟨0x04, 10, s_Wh, s_Energy⟩,
  ⟨0x05, 100, s_Wh, s_Energy⟩,
  ⟨0x06, 1000, s_Wh, s_Energy⟩,
  ⟨0x07, 10000, s_Wh, s_Energy⟩,
  ⟨0x08, 1, s_J, s_Energy⟩,
  ⟨0x09, 10, s_J, s_Energy⟩,
  ⟨0x0A, 100, s_J, s_Energy⟩,
  ⟨0x0B, 1000, s_J, s_Energy⟩,
  ⟨0x0C, 10000, s_J, s_Energy⟩,
  ⟨0x0D, 100000, s_J, s_Energy⟩,
  ⟨0x0E, 1000000, s_J, s_Energy⟩,
  ⟨0x0F, 10000000, s_J, s_Energy⟩,
  ⟨0x10, 1/1000000, s_m_3, s_Volume⟩,
  ⟨0x11, 1/100000, s_m_3, s_Volume⟩,
  ⟨0x12, 1/10000, s_m_3, s_Volume⟩,
  ⟨0x13, 1/1000, s_m_3, s_Volume⟩,
  ⟨0x14, 1/100, s_m_3, s_Volume⟩,
  ⟨0x15, 1/10, s_m_3, s_Volume⟩,
  ⟨0x16, 1, s_m_3, s_Volume⟩,
  ⟨0x17, 10, s_m_3, s_Volume⟩,
  ⟨0x18, 1/1000, s_kg, s_Mass⟩,
  ⟨0x19, 1/100, s_kg, s_Mass⟩,
  ⟨0x1A, 1/10, s_kg, s_Mass⟩,
  ⟨0x1B, 1, s_kg, s_Mass⟩,
  ⟨0x1C, 10, s_kg, s_Mass⟩,
  ⟨0x1D, 100, s_kg, s_Mass⟩,
  ⟨0x1E, 1000, s_kg, s_Mass⟩,
  ⟨0x1F, 10000, s_kg, s_Mass⟩,
  ⟨0x20, 1, s_s, s_On_time⟩,
  ⟨0x21, 60, s_s, s_On_time⟩,
  ⟨0x22, 3600, s_s, s_On_time⟩,
  ⟨0x23, 86400, s_s, s_On_time⟩,
  ⟨0x24, 1, s_s, s_Operating_time⟩,
  ⟨0x25, 60, s_s, s_Operating_time⟩,
  ⟨0x26, 3600, s_s, s_Operating_time⟩,
  ⟨0x27, 86400, s_s, s_Operating_time⟩,
  ⟨0x28, 1/1000, s_W, s_Power⟩,
  ⟨0x29, 1/100, s_W, s_Power⟩,
  ⟨0x2A, 1/10, s_W, s_Power⟩,
  ⟨0x2B, 1, s_W, s_Power⟩,
  ⟨0x2C, 10, s_W, s_Power⟩,
  ⟨0x2D, 100, s_W, s_Power⟩,
  ⟨0x2E, 1000, s_W, s_Power⟩,
  ⟨0x2F, 10000, s_W, s_Power⟩,
  ⟨0x30, 1, s_J_h, s_Power⟩,
  ⟨0x31, 10, s_J_h, s_Power⟩,
  ⟨0x32, 100, s_J_h, s_Power⟩,
  ⟨0x33, 1000, s_J_h, s_Power⟩,
  ⟨0x34, 10000, s_J_h, s_Power⟩,
  ⟨0x35, 100000, s_J_h, s_Power⟩,
  ⟨0x36, 1000000, s_J_h, s_Power⟩,
  ⟨0x37, 10000000, s_J_h, s_Power⟩,
  ⟨0x38, 1/1000000, s_m_3_h, s_Volume_flow⟩,
  ⟨0x39, 1/100000, s_m_3_h, s_Volume_flow⟩,
  ⟨0x3A, 1/10000, s_m_3_h, s_Volume_flow⟩,
  ⟨0x3B, 1/1000, s_m_3_h, s_Volume_flow⟩,
  ⟨0x3C, 1/100, s_m_3_h, s_Volume_flow⟩,
  ⟨0x3D, 1/10, s_m_3_h, s_Volume_flow⟩,
  ⟨0x3E, 1, s_m_3_h, s_Volume_flow⟩,
  ⟨0x3F, 10, s_m_3_h, s_Volume_flow⟩]

/-- mbus-protocol-aux.c:42-669 `vif_table`, rows 64-127 -/
def vifTable1 : List VifRow := [
  ⟨0x40, 1/10000000, s_m_3_min, s_Volume_flow⟩,
  ⟨0x41, 1/1000000, s_m_3_min, s_Volume_flow⟩,
  ⟨0x42, 1/100000, s_m_3_min, s_Volume_flow⟩,
  ⟨0x43, 1/10000, s_m_3_min, s_Volume_flow⟩,
  ⟨0x44, 1/1000, s_m_3_min, s_Volume_flow⟩,
  ⟨0x45, 1/100, s_m_3_min, s_Volume_flow⟩,
  ⟨0x46, 1/10, s_m_3_min, s_Volume_flow⟩,
  ⟨0x47, 1, s_m_3_min, s_Volume_flow⟩,
  ⟨0x48, 1/1000000000, s_m_3_s, s_Volume_flow⟩,
  ⟨0x49, 1/100000000, s_m_3_s, s_Volume_flow⟩,
  ⟨0x4A, 1/10000000, s_m_3_s, s_Volume_flow⟩,
  ⟨0x4B, 1/1000000, s_m_3_s, s_Volume_flow⟩,
  ⟨0x4C, 1/100000, s_m_3_s, s_Volume_flow⟩,
  ⟨0x4D, 1/10000, s_m_3_s, s_Volume_flow⟩,
  ⟨0x4E, 1/1000, s_m_3_s, s_Volume_flow⟩,
  ⟨0x4F, 1/100, s_m_3_s, s_Volume_flow⟩,
  ⟨0x50, 1/1000, s_kg_h, s_Mass_flow⟩,
  ⟨0x51, 1/100, s_kg_h, s_Mass_flow⟩,
  ⟨0x52, 1/10, s_kg_h, s_Mass_flow⟩,
  ⟨0x53, 1, s_kg_h, s_Mass_flow⟩,
  ⟨0x54, 10, s_kg_h, s_Mass_flow⟩,
  ⟨0x55, 100, s_kg_h, s_Mass_flow⟩,
  ⟨0x56, 1000, s_kg_h, s_Mass_flow⟩,
  ⟨0x57, 10000, s_kg_h, s_Mass_flow⟩,
  ⟨0x58, 1/1000, s_degC, s_Flow_temperature⟩,
  ⟨0x59, 1/100, s_degC, s_Flow_temperature⟩,
  ⟨0x5A, 1/10, s_degC, s_Flow_temperature⟩,
  ⟨0x5B, 1, s_degC, s_Flow_temperature⟩,
  ⟨0x5C, 1/1000, s_degC, s_Return_temperature⟩,
  ⟨0x5D, 1/100, s_degC, s_Return_temperature⟩,
  ⟨0x5E, 1/10, s_degC, s_Return_temperature⟩,
  ⟨0x5F, 1, s_degC, s_Return_temperature⟩,
  ⟨0x60, 1/1000, s_K, s_Temperature_difference⟩,
  ⟨0x61, 1/100, s_K, s_Temperature_difference⟩,
  ⟨0x62, 1/10, s_K, s_Temperature_difference⟩,
  ⟨0x63, 1, s_K, s_Temperature_difference⟩,
  ⟨0x64, 1/1000, s_degC, s_External_temperature⟩,
  ⟨0x65, 1/100, s_degC, s_External_temperature⟩,
  ⟨0x66, 1/10, s_degC, s_External_temperature⟩,
  ⟨0x67, 1, s_degC, s_External_temperature⟩,
  ⟨0x68, 1/1000, s_bar, s_Pressure⟩,
  ⟨0x69, 1/100, s_bar, s_Pressure⟩,
  ⟨0x6A, 1/10, s_bar, s_Pressure⟩,
  ⟨0x6B, 1, s_bar, s_Pressure⟩,
  ⟨0x6C, 1, s_, s_Time_point_date⟩,
  ⟨0x6D, 1, s_, s_Time_point_date_time⟩,
  ⟨0x6E, 1, s_Units_for_H_C_A, s_H_C_A⟩,
  ⟨0x6F, 0, s_Reserved, s_Reserved⟩,
  ⟨0x70, 1, s_s, s_Averaging_Duration⟩,
  ⟨0x71, 60, s_s, s_Averaging_Duration⟩,
  ⟨0x72, 3600, s_s, s_Averaging_Duration⟩,
  ⟨0x73, 86400, s_s, s_Averaging_Duration⟩,
  ⟨0x74, 1, s_s, s_Actuality_Duration⟩,
  ⟨0x75, 60, s_s, s_Actuality_Duration⟩,
  ⟨0x76, 3600, s_s, s_Actuality_Duration⟩,
  ⟨0x77, 86400, s_s, s_Actuality_Duration⟩,
  ⟨0x78, 1, s_x, s_Fabrication_No⟩,
  ⟨0x79, 1, s_x, s_Enhanced_Identification⟩,
  ⟨0x7A, 1, s_x, s_Bus_Address⟩,
  ⟨0x7E, 1, s_x, s_Any_VIF⟩,
  ⟨0x7F, 1, s_x, s_Manufacturer_specific⟩,
  ⟨0xFE, 1, s_x, s_Any_VIF⟩,
  ⟨0xFF, 1, s_x, s_Manufacturer_specific⟩,
  ⟨0x100, 1/1000, s_Currency_units, s_Credit⟩]

/-- mbus-protocol-aux.c:42-669 `vif_table`, rows 128-191 -/
def vifTable2 : List VifRow := [
  ⟨0x101, 1/100, s_Currency_units, s_Credit⟩,
  ⟨0x102, 1/10, s_Currency_units, s_Credit⟩,
  ⟨0x103, 1, s_Currency_units, s_Credit⟩,
  ⟨0x104, 1/1000, s_Currency_units, s_Debit⟩,
  ⟨0x105, 1/100, s_Currency_units, s_Debit⟩,
  ⟨0x106, 1/10, s_Currency_units, s_Debit⟩,
  ⟨0x107, 1, s_Currency_units, s_Debit⟩,
  ⟨0x108, 1, s_x, s_Access_Number_transmission_count⟩,
  ⟨0x109, 1, s_x, s_Medium⟩,
  ⟨0x10A, 1, s_x, s_Manufacturer⟩,
  ⟨0x10B, 1, s_x, s_Parameter_set_identification⟩,
  ⟨0x10C, 1, s_x, s_Model_Version⟩,
  ⟨0x10D, 1, s_x, s_Hardware_version⟩,
  ⟨0x10E, 1, s_x, s_Firmware_version⟩,
  ⟨0x10F, 1, s_x, s_Software_version⟩,
  ⟨0x110, 1, s_x, s_Customer_location⟩,
  ⟨0x111, 1, s_x, s_Customer⟩,
  ⟨0x112, 1, s_x, s_Access_Code_User⟩,
  ⟨0x113, 1, s_x, s_Access_Code_Operator⟩,
  ⟨0x114, 1, s_x, s_Access_Code_System_Operator⟩,
  ⟨0x115, 1, s_x, s_Access_Code_Developer⟩,
  ⟨0x116, 1, s_x, s_Password⟩,
  ⟨0x117, 1, s_x, s_Error_flags⟩,
  ⟨0x118, 1, s_x, s_Error_mask⟩,
  ⟨0x119, 1, s_Reserved, s_Reserved⟩,
  ⟨0x11A, 1, s_x, s_Digital_Output⟩,
  ⟨0x11B, 1, s_x, s_Digital_Input⟩,
  ⟨0x11C, 1, s_Baud, s_Baudrate⟩,
  ⟨0x11D, 1, s_Bittimes, s_Response_delay_time⟩,
  ⟨0x11E, 1, s_x, s_Retry⟩,
  ⟨0x11F, 1, s_Reserved, s_Reserved⟩,
  ⟨0x120, 1, s_x, s_First_storage_for_cyclic_storage⟩,
  ⟨0x121, 1, s_x, s_Last_storage_for_cyclic_storage⟩,
  ⟨0x122, 1, s_x, s_Size_of_storage_block⟩,
  ⟨0x123, 1, s_Reserved, s_Reserved⟩,
  ⟨0x124, 1, s_s, s_Storage_interval⟩,
  ⟨0x125, 60, s_s, s_Storage_interval⟩,
  ⟨0x126, 3600, s_s, s_Storage_interval⟩,
  ⟨0x127, 86400, s_s, s_Storage_interval⟩,
  ⟨0x128, 262974383/100, s_s, s_Storage_interval⟩,
  ⟨0x129, 31556926, s_s, s_Storage_interval⟩,
  ⟨0x12A, 1, s_Reserved, s_Reserved⟩,
  ⟨0x12B, 1, s_Reserved, s_Reserved⟩,
  ⟨0x12C, 1, s_s, s_Duration_since_last_readout⟩,
  ⟨0x12D, 60, s_s, s_Duration_since_last_readout⟩,
  ⟨0x12E, 3600, s_s, s_Duration_since_last_readout⟩,
  ⟨0x12F, 86400, s_s, s_Duration_since_last_readout⟩,
  ⟨0x130, 1, s_Reserved, s_Reserved⟩,
  ⟨0x131, 60, s_s, s_Duration_of_tariff⟩,
  ⟨0x132, 3600, s_s, s_Duration_of_tariff⟩,
  ⟨0x133, 86400, s_s, s_Duration_of_tariff⟩,
  ⟨0x134, 1, s_s, s_Period_of_tariff⟩,
  ⟨0x135, 60, s_s, s_Period_of_tariff⟩,
  ⟨0x136, 3600, s_s, s_Period_of_tariff⟩,
  ⟨0x137, 86400, s_s, s_Period_of_tariff⟩,
  ⟨0x138, 262974383/100, s_s, s_Period_of_tariff⟩,
  ⟨0x139, 31556926, s_s, s_Period_of_tariff⟩,
  ⟨0x13A, 1, s_x, s_Dimensionless⟩,
  ⟨0x13B, 1, s_Reserved, s_Reserved⟩,
  ⟨0x13C, 1, s_Reserved, s_Reserved⟩,
  ⟨0x13D, 1, s_Reserved, s_Reserved⟩,
  ⟨0x13E, 1, s_Reserved, s_Reserved⟩,
  ⟨0x13F, 1, s_Reserved, s_Reserved⟩,
  ⟨0x140, 1/1000000000, s_V, s_Voltage⟩]

/-- mbus-protocol-aux.c:42-669 `vif_table`, rows 192-255 -/
def vifTable3 : List VifRow := [
  ⟨0x141, 1/100000000, s_V, s_Voltage⟩,
  ⟨0x142, 1/10000000, s_V, s_Voltage⟩,
  ⟨0x143, 1/1000000, s_V, s_Voltage⟩,
  ⟨0x144, 1/100000, s_V, s_Voltage⟩,
  ⟨0x145, 1/10000, s_V, s_Voltage⟩,
  ⟨0x146, 1/1000, s_V, s_Voltage⟩,
  ⟨0x147, 1/100, s_V, s_Voltage⟩,
  ⟨0x148, 1/10, s_V, s_Voltage⟩,
  ⟨0x149, 1, s_V, s_Voltage⟩,
  ⟨0x14A, 10, s_V, s_Voltage⟩,
  ⟨0x14B, 100, s_V, s_Voltage⟩,
  ⟨0x14C, 1000, s_V, s_Voltage⟩,
  ⟨0x14D, 10000, s_V, s_Voltage⟩,
  ⟨0x14E, 100000, s_V, s_Voltage⟩,
  ⟨0x14F, 1000000, s_V, s_Voltage⟩,
  ⟨0x150, 1/1000000000000, s_A, s_Current⟩,
  ⟨0x151, 1/100000000000, s_A, s_Current⟩,
  ⟨0x152, 1/10000000000, s_A, s_Current⟩,
  ⟨0x153, 1/1000000000, s_A, s_Current⟩,
  ⟨0x154, 1/100000000, s_A, s_Current⟩,
  ⟨0x155, 1/10000000, s_A, s_Current⟩,
  ⟨0x156, 1/1000000, s_A, s_Current⟩,
  ⟨0x157, 1/100000, s_A, s_Current⟩,
  ⟨0x158, 1/10000, s_A, s_Current⟩,
  ⟨0x159, 1/1000, s_A, s_Current⟩,
  ⟨0x15A, 1/100, s_A, s_Current⟩,
  ⟨0x15B, 1/10, s_A, s_Current⟩,
  ⟨0x15C, 1, s_A, s_Current⟩,
  ⟨0x15D, 10, s_A, s_Current⟩,
  ⟨0x15E, 100, s_A, s_Current⟩,
  ⟨0x15F, 1000, s_A, s_Current⟩,
  ⟨0x160, 1, s_x, s_Reset_counter⟩,
  ⟨0x161, 1, s_x, s_Cumulation_counter⟩,
  ⟨0x162, 1, s_x, s_Control_signal⟩,
  ⟨0x163, 1, s_x, s_Day_of_week⟩,
  ⟨0x164, 1, s_x, s_Week_number⟩,
  ⟨0x165, 1, s_x, s_Time_point_of_day_change⟩,
  ⟨0x166, 1, s_x, s_State_of_parameter_activation⟩,
  ⟨0x167, 1, s_x, s_Special_supplier_information⟩,
  ⟨0x168, 3600, s_s, s_Duration_since_last_cumulation⟩,
  ⟨0x169, 86400, s_s, s_Duration_since_last_cumulation⟩,
  ⟨0x16A, 262974383/100, s_s, s_Duration_since_last_cumulation⟩,
  ⟨0x16B, 31556926, s_s, s_Duration_since_last_cumulation⟩,
  ⟨0x16C, 3600, s_s, s_Operating_time_battery⟩,
  ⟨0x16D, 86400, s_s, s_Operating_time_battery⟩,
  ⟨0x16E, 262974383/100, s_s, s_Operating_time_battery⟩,
  ⟨0x16F, 31556926, s_s, s_Operating_time_battery⟩,
  ⟨0x170, 1, s_x, s_Date_and_time_of_battery_change⟩,
  ⟨0x171, 1, s_Reserved, s_Reserved⟩,
  ⟨0x172, 1, s_Reserved, s_Reserved⟩,
  ⟨0x173, 1, s_Reserved, s_Reserved⟩,
  ⟨0x174, 1, s_Reserved, s_Reserved⟩,
  ⟨0x175, 1, s_Reserved, s_Reserved⟩,
  ⟨0x176, 1, s_Reserved, s_Reserved⟩,
  ⟨0x177, 1, s_Reserved, s_Reserved⟩,
  ⟨0x178, 1, s_Reserved, s_Reserved⟩,
  ⟨0x179, 1, s_Reserved, s_Reserved⟩,
  ⟨0x17A, 1, s_Reserved, s_Reserved⟩,
  ⟨0x17B, 1, s_Reserved, s_Reserved⟩,
  ⟨0x17C, 1, s_Reserved, s_Reserved⟩,
  ⟨0x17D, 1, s_Reserved, s_Reserved⟩,
  ⟨0x17E, 1, s_Reserved, s_Reserved⟩,
  ⟨0x17F, 1, s_Reserved, s_Reserved⟩,
  ⟨0x200, 100000, s_Wh, s_Energy⟩]

/-- mbus-protocol-aux.c:42-669 `vif_table`, rows 256-319 -/
def vifTable4 : List VifRow := [
  ⟨0x201, 1000000, s_Wh, s_Energy⟩,
  ⟨0x202, 1, s_Reserved, s_Reserved⟩,
  ⟨0x203, 1, s_Reserved, s_Reserved⟩,
  ⟨0x204, 1, s_Reserved, s_Reserved⟩,
  ⟨0x205, 1, s_Reserved, s_Reserved⟩,
  ⟨0x206, 1, s_Reserved, s_Reserved⟩,
  ⟨0x207, 1, s_Reserved, s_Reserved⟩,
  ⟨0x208, 100000000, s_Reserved, s_Energy⟩,
  ⟨0x209, 1000000000, s_Reserved, s_Energy⟩,
  ⟨0x20A, 1, s_Reserved, s_Reserved⟩,
  ⟨0x20B, 1, s_Reserved, s_Reserved⟩,
  ⟨0x20C, 1, s_Reserved, s_Reserved⟩,
  ⟨0x20D, 1, s_Reserved, s_Reserved⟩,
  ⟨0x20E, 1, s_Reserved, s_Reserved⟩,
  ⟨0x20F, 1, s_Reserved, s_Reserved⟩,
  ⟨0x210, 100, s_m_3, s_Volume⟩,
  ⟨0x211, 1000, s_m_3, s_Volume⟩,
  ⟨0x212, 1, s_Reserved, s_Reserved⟩,
  ⟨0x213, 1, s_Reserved, s_Reserved⟩,
  ⟨0x214, 1, s_Reserved, s_Reserved⟩,
  ⟨0x215, 1, s_Reserved, s_Reserved⟩,
  ⟨0x216, 1, s_Reserved, s_Reserved⟩,
  ⟨0x217, 1, s_Reserved, s_Reserved⟩,
  ⟨0x218, 100000, s_kg, s_Mass⟩,
  ⟨0x219, 1000000, s_kg, s_Mass⟩,
  ⟨0x21A, 1, s_Reserved, s_Reserved⟩,
  ⟨0x21B, 1, s_Reserved, s_Reserved⟩,
  ⟨0x21C, 1, s_Reserved, s_Reserved⟩,
  ⟨0x21D, 1, s_Reserved, s_Reserved⟩,
  ⟨0x21E, 1, s_Reserved, s_Reserved⟩,
  ⟨0x21F, 1, s_Reserved, s_Reserved⟩,
  ⟨0x220, 1, s_Reserved, s_Reserved⟩,
  ⟨0x221, 1/10, s_feet_3, s_Volume⟩,
  ⟨0x222, 1/10, s_American_gallon, s_Volume⟩,
  ⟨0x223, 1, s_American_gallon, s_Volume⟩,
  ⟨0x224, 1/1000, s_American_gallon_min, s_Volume_flow⟩,
  ⟨0x225, 1, s_American_gallon_min, s_Volume_flow⟩,
  ⟨0x226, 1, s_American_gallon_h, s_Volume_flow⟩,
  ⟨0x227, 1, s_Reserved, s_Reserved⟩,
  ⟨0x228, 100000, s_W, s_Power⟩,
  ⟨0x229, 1000000, s_W, s_Power⟩,
  ⟨0x22A, 1, s_Reserved, s_Reserved⟩,
  ⟨0x22B, 1, s_Reserved, s_Reserved⟩,
  ⟨0x22C, 1, s_Reserved, s_Reserved⟩,
  ⟨0x22D, 1, s_Reserved, s_Reserved⟩,
  ⟨0x22E, 1, s_Reserved, s_Reserved⟩,
  ⟨0x22F, 1, s_Reserved, s_Reserved⟩,
  ⟨0x230, 100000000, s_J, s_Power⟩,
  ⟨0x231, 1000000000, s_J, s_Power⟩,
  ⟨0x232, 1, s_Reserved, s_Reserved⟩,
  ⟨0x233, 1, s_Reserved, s_Reserved⟩,
  ⟨0x234, 1, s_Reserved, s_Reserved⟩,
  ⟨0x235, 1, s_Reserved, s_Reserved⟩,
  ⟨0x236, 1, s_Reserved, s_Reserved⟩,
  ⟨0x237, 1, s_Reserved, s_Reserved⟩,
  ⟨0x238, 1, s_Reserved, s_Reserved⟩,
  ⟨0x239, 1, s_Reserved, s_Reserved⟩,
  ⟨0x23A, 1, s_Reserved, s_Reserved⟩,
  ⟨0x23B, 1, s_Reserved, s_Reserved⟩,
  ⟨0x23C, 1, s_Reserved, s_Reserved⟩,
  ⟨0x23D, 1, s_Reserved, s_Reserved⟩,
  ⟨0x23E, 1, s_Reserved, s_Reserved⟩,
  ⟨0x23F, 1, s_Reserved, s_Reserved⟩,
  ⟨0x240, 1, s_Reserved, s_Reserved⟩]

/-- mbus-protocol-aux.c:42-669 `vif_table`, rows 320-382 -/
def vifTable5 : List VifRow := [
  ⟨0x241, 1, s_Reserved, s_Reserved⟩,
  ⟨0x242, 1, s_Reserved, s_Reserved⟩,
  ⟨0x243, 1, s_Reserved, s_Reserved⟩,
  ⟨0x244, 1, s_Reserved, s_Reserved⟩,
  ⟨0x245, 1, s_Reserved, s_Reserved⟩,
  ⟨0x246, 1, s_Reserved, s_Reserved⟩,
  ⟨0x247, 1, s_Reserved, s_Reserved⟩,
  ⟨0x248, 1, s_Reserved, s_Reserved⟩,
  ⟨0x249, 1, s_Reserved, s_Reserved⟩,
  ⟨0x24A, 1, s_Reserved, s_Reserved⟩,
  ⟨0x24B, 1, s_Reserved, s_Reserved⟩,
  ⟨0x24C, 1, s_Reserved, s_Reserved⟩,
  ⟨0x24D, 1, s_Reserved, s_Reserved⟩,
  ⟨0x24E, 1, s_Reserved, s_Reserved⟩,
  ⟨0x24F, 1, s_Reserved, s_Reserved⟩,
  ⟨0x250, 1, s_Reserved, s_Reserved⟩,
  ⟨0x251, 1, s_Reserved, s_Reserved⟩,
  ⟨0x252, 1, s_Reserved, s_Reserved⟩,
  ⟨0x253, 1, s_Reserved, s_Reserved⟩,
  ⟨0x254, 1, s_Reserved, s_Reserved⟩,
  ⟨0x255, 1, s_Reserved, s_Reserved⟩,
  ⟨0x256, 1, s_Reserved, s_Reserved⟩,
  ⟨0x257, 1, s_Reserved, s_Reserved⟩,
  ⟨0x258, 1/1000, s_degF, s_Flow_temperature⟩,
  ⟨0x259, 1/100, s_degF, s_Flow_temperature⟩,
  ⟨0x25A, 1/10, s_degF, s_Flow_temperature⟩,
  ⟨0x25B, 1, s_degF, s_Flow_temperature⟩,
  ⟨0x25C, 1/1000, s_degF, s_Return_temperature⟩,
  ⟨0x25D, 1/100, s_degF, s_Return_temperature⟩,
  ⟨0x25E, 1/10, s_degF, s_Return_temperature⟩,
  ⟨0x25F, 1, s_degF, s_Return_temperature⟩,
  ⟨0x260, 1/1000, s_degF, s_Temperature_difference⟩,
  ⟨0x261, 1/100, s_degF, s_Temperature_difference⟩,
  ⟨0x262, 1/10, s_degF, s_Temperature_difference⟩,
  ⟨0x263, 1, s_degF, s_Temperature_difference⟩,
  ⟨0x264, 1/1000, s_degF, s_External_temperature⟩,
  ⟨0x265, 1/100, s_degF, s_External_temperature⟩,
  ⟨0x266, 1/10, s_degF, s_External_temperature⟩,
  ⟨0x267, 1, s_degF, s_External_temperature⟩,
  ⟨0x268, 1, s_Reserved, s_Reserved⟩,
  ⟨0x269, 1, s_Reserved, s_Reserved⟩,
  ⟨0x26A, 1, s_Reserved, s_Reserved⟩,
  ⟨0x26B, 1, s_Reserved, s_Reserved⟩,
  ⟨0x26C, 1, s_Reserved, s_Reserved⟩,
  ⟨0x26D, 1, s_Reserved, s_Reserved⟩,
  ⟨0x26E, 1, s_Reserved, s_Reserved⟩,
  ⟨0x26F, 1, s_Reserved, s_Reserved⟩,
  ⟨0x270, 1/1000, s_degF, s_Cold_Warm_Temperature_Limit⟩,
  ⟨0x271, 1/100, s_degF, s_Cold_Warm_Temperature_Limit⟩,
  ⟨0x272, 1/10, s_degF, s_Cold_Warm_Temperature_Limit⟩,
  ⟨0x273, 1, s_degF, s_Cold_Warm_Temperature_Limit⟩,
  ⟨0x274, 1/1000, s_degC, s_Cold_Warm_Temperature_Limit⟩,
  ⟨0x275, 1/100, s_degC, s_Cold_Warm_Temperature_Limit⟩,
  ⟨0x276, 1/10, s_degC, s_Cold_Warm_Temperature_Limit⟩,
  ⟨0x277, 1, s_degC, s_Cold_Warm_Temperature_Limit⟩,
  ⟨0x278, 1/1000, s_W, s_Cumul_count_max_power⟩,
  ⟨0x279, 1/1000, s_W, s_Cumul_count_max_power⟩,
  ⟨0x27A, 1/10, s_W, s_Cumul_count_max_power⟩,
  ⟨0x27B, 1, s_W, s_Cumul_count_max_power⟩,
  ⟨0x27C, 10, s_W, s_Cumul_count_max_power⟩,
  ⟨0x27D, 100, s_W, s_Cumul_count_max_power⟩,
  ⟨0x27E, 1000, s_W, s_Cumul_count_max_power⟩,
  ⟨0x27F, 10000, s_W, s_Cumul_count_max_power⟩]

/-- mbus-protocol-aux.c:42-669 `vif_table` -/
def vifTable : List VifRow := vifTable0 ++ vifTable1 ++ vifTable2 ++ vifTable3 ++ vifTable4 ++ vifTable5

/-- mbus-protocol-aux.c:672-748 `fixed_table` -/
def fixedTable : List VifRow := [
  ⟨0x02, 1, s_Wh, s_Energy⟩,
  ⟨0x03, 10, s_Wh, s_Energy⟩,
  ⟨0x04, 100, s_Wh, s_Energy⟩,
  ⟨0x05, 1000, s_Wh, s_Energy⟩,
  ⟨0x06, 10000, s_Wh, s_Energy⟩,
  ⟨0x07, 100000, s_Wh, s_Energy⟩,
  ⟨0x08, 1000000, s_Wh, s_Energy⟩,
  ⟨0x09, 10000000, s_Wh, s_Energy⟩,
  ⟨0x0A, 100000000, s_Wh, s_Energy⟩,
  ⟨0x0B, 1000, s_J, s_Energy⟩,
  ⟨0x0C, 10000, s_J, s_Energy⟩,
  ⟨0x0D, 100000, s_J, s_Energy⟩,
  ⟨0x0E, 1000000, s_J, s_Energy⟩,
  ⟨0x0F, 10000000, s_J, s_Energy⟩,
  ⟨0x10, 100000000, s_J, s_Energy⟩,
  ⟨0x11, 1000000000, s_J, s_Energy⟩,
  ⟨0x12, 10000000000, s_J, s_Energy⟩,
  ⟨0x13, 100000000000, s_J, s_Energy⟩,
  ⟨0x14, 1, s_W, s_Power⟩,
  ⟨0x15, 1, s_W, s_Power⟩,
  ⟨0x16, 1, s_W, s_Power⟩,
  ⟨0x17, 1, s_W, s_Power⟩,
  ⟨0x18, 1, s_W, s_Power⟩,
  ⟨0x19, 1, s_W, s_Power⟩,
  ⟨0x1A, 1, s_W, s_Power⟩,
  ⟨0x1B, 1, s_W, s_Power⟩,
  ⟨0x1C, 1, s_W, s_Power⟩,
  ⟨0x1D, 1000, s_J_h, s_Energy⟩,
  ⟨0x1E, 10000, s_J_h, s_Energy⟩,
  ⟨0x1F, 100000, s_J_h, s_Energy⟩,
  ⟨0x20, 1000000, s_J_h, s_Energy⟩,
  ⟨0x21, 10000000, s_J_h, s_Energy⟩,
  ⟨0x22, 100000000, s_J_h, s_Energy⟩,
  ⟨0x23, 1000000000, s_J_h, s_Energy⟩,
  ⟨0x24, 10000000000, s_J_h, s_Energy⟩,
  ⟨0x25, 100000000000, s_J_h, s_Energy⟩,
  ⟨0x26, 1/1000000, s_m_3, s_Volume⟩,
  ⟨0x27, 1/100000, s_m_3, s_Volume⟩,
  ⟨0x28, 1/10000, s_m_3, s_Volume⟩,
  ⟨0x29, 1/1000, s_m_3, s_Volume⟩,
  ⟨0x2A, 1/100, s_m_3, s_Volume⟩,
  ⟨0x2B, 1/10, s_m_3, s_Volume⟩,
  ⟨0x2C, 1, s_m_3, s_Volume⟩,
  ⟨0x2D, 10, s_m_3, s_Volume⟩,
  ⟨0x2E, 100, s_m_3, s_Volume⟩,
  ⟨0x2F, 1/100000, s_m_3_h, s_Volume_flow⟩,
  ⟨0x31, 1/10000, s_m_3_h, s_Volume_flow⟩,
  ⟨0x32, 1/1000, s_m_3_h, s_Volume_flow⟩,
  ⟨0x33, 1/100, s_m_3_h, s_Volume_flow⟩,
  ⟨0x34, 1/10, s_m_3_h, s_Volume_flow⟩,
  ⟨0x35, 1, s_m_3_h, s_Volume_flow⟩,
  ⟨0x36, 10, s_m_3_h, s_Volume_flow⟩,
  ⟨0x37, 100, s_m_3_h, s_Volume_flow⟩,
  ⟨0x38, 1/1000, s_degC, s_Temperature⟩,
  ⟨0x39, 1, s_Units_for_H_C_A, s_H_C_A⟩,
  ⟨0x3A, 0, s_Reserved, s_Reserved⟩,
  ⟨0x3B, 0, s_Reserved, s_Reserved⟩,
  ⟨0x3C, 0, s_Reserved, s_Reserved⟩,
  ⟨0x3D, 0, s_Reserved, s_Reserved⟩,
  ⟨0x3E, 1, s_x, s_historic⟩,
  ⟨0x3F, 1, s_x, s_No_units⟩]

end Mbus
