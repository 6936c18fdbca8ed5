import Verif.Model.Statics
import Verif.Spec.Delivered
import Verif.Spec.Xml
/-
The API functions that return a text in memory of the library: which later calls overwrite a text, and what the text is.
The functions that return allocated strings (`mbus_frame_xml`, ...) and the printing functions call these and are histories of such calls here.
-/
namespace Mbus.Spec

/-- A call of one of the functions that return a text; the scratch memory `e` of the XML functions is an input. -/
inductive TextCall where
  | manufacturer (b1 b2 : Byte)
  | product (h : VarHeader)
  | fixedMedium (x : FixedData)
  | fixedUnit (u : Int)
  | medium (m : Byte)
  | unitPrefix (e : Int)
  | vif (v : Byte)
  | error (e : Int)
  | vib (r : Record)
  | decode (r : Record)
  | unit (r : Record)
  | value (r : Record)
  | function (r : Record)
  | fixedFunction (status : Int)
  | headerXml (e : List Byte) (h : VarHeader)
  | recordXml (e : List Byte) (r : Record) (stamp : Option (List Byte)) (cnt frame : Int)
  | address (f : Frame)

/-- The functions: `mbus_decode_manufacturer`, `mbus_data_product_name`, `mbus_data_fixed_medium`, `mbus_data_fixed_unit`, `mbus_data_variable_medium_lookup`,
`mbus_unit_prefix`, `mbus_vif_unit_lookup`, `mbus_data_error_lookup`, `mbus_vib_unit_lookup`, `mbus_data_record_decode`, `mbus_data_record_unit`, `mbus_data_record_value`,
`mbus_data_record_function`, `mbus_data_fixed_function`, `mbus_data_variable_header_xml`, `mbus_data_variable_record_xml`, `mbus_frame_get_secondary_address`. -/
inductive TextKind where
  | manufacturer | product | fixedMedium | fixedUnit | medium | unitPrefix | vif | error | vib | decode | unit | value | function | fixedFunction | headerXml | recordXml
  | address
  deriving DecidableEq

def TextCall.kind : TextCall → TextKind
  | .manufacturer .. => .manufacturer
  | .product .. => .product
  | .fixedMedium .. => .fixedMedium
  | .fixedUnit .. => .fixedUnit
  | .medium .. => .medium
  | .unitPrefix .. => .unitPrefix
  | .vif .. => .vif
  | .error .. => .error
  | .vib .. => .vib
  | .decode .. => .decode
  | .unit .. => .unit
  | .value .. => .value
  | .function .. => .function
  | .fixedFunction .. => .fixedFunction
  | .headerXml .. => .headerXml
  | .recordXml .. => .recordXml
  | .address .. => .address

/-- The calls after which a text must not be used any more.  Everything else leaves it alone. -/
def invalidatedBy : TextKind → List TextKind
  | .manufacturer => [.manufacturer, .headerXml]
  | .product => [.product, .headerXml]
  | .medium => [.medium, .headerXml]
  | .unitPrefix => [.unitPrefix, .vif, .vib, .unit, .recordXml]
  | .vif => [.vif, .vib, .unit, .recordXml]
  | .vib => [.vif, .vib, .unit, .recordXml]
  | .decode => [.decode, .value, .recordXml]
  | .unit => [.unit, .recordXml]
  | .value => [.value, .recordXml]
  | .function => [.function, .recordXml]
  | k => [k]

/-- A call of the program on the static memory. -/
def TextCall.run : TextCall → Statics → C (Ptr × Statics)
  | .manufacturer b1 b2 => sManufacturer b1 b2
  | .product h => sProduct h
  | .fixedMedium x => sPlain .fixedMedium (fixedMediumText x)
  | .fixedUnit u => sPlain .fixedUnit (fixedUnitText u)
  | .medium m => sPlain .medium (mediumText m)
  | .unitPrefix e => sPrefix e
  | .vif v => sVif v
  | .error e => sPlain .error (errorText e)
  | .vib r => sVib r
  | .decode r => sDecode r
  | .unit r => sUnit r
  | .value r => sValue r
  | .function r => sPlain .function (recordFunctionText r)
  | .fixedFunction st => sPlain .fixedFunction (fixedFunctionText st)
  | .headerXml e h => sHeaderXml e h
  | .recordXml e r stamp cnt frame => sRecordXml e r stamp cnt frame
  | .address f => sAddress f

/-- The text of a call, a function of its arguments alone (the lookups of Model/Unit.lean, Model/Value.lean, Model/Xml.lean, whose content is the subject of C16, C64, C66, C76,
C82, C108 and C111); `none` for a NULL result. -/
def TextCall.text : TextCall → C (Option (List Byte))
  | .manufacturer b1 b2 => do .ok (some (← decodeManufacturer b1 b2))
  | .product h => do .ok (some (← productName h))
  | .fixedMedium x => .ok (some (Mbus.fixedMedium x))
  | .fixedUnit u => .ok (some (Mbus.fixedUnit u))
  | .medium m => .ok (some (mediumLookup m))
  | .unitPrefix e => .ok (some (Mbus.unitPrefix e))
  | .vif v => .ok (some (vifUnitLookup v))
  | .error e => .ok (some (errorLookup e))
  | .vib r => do .ok (some (← vibUnitLookup r))
  | .decode r => .ok (some (upToNul (shown r)))
  | .unit r => do .ok (some (← recordUnit r))
  | .value r => do .ok (some (← recordValue (List.replicate 768 0) r))
  | .function r => .ok (some (recordFunction r))
  | .fixedFunction st => .ok (some (Mbus.fixedFunction st))
  | .headerXml _ h => do .ok (some (← Mbus.headerXml (fun _ => 0) h))
  | .recordXml _ r stamp cnt frame => do .ok (some (← Mbus.recordXml (fun _ => 0) r stamp cnt frame))
  | .address f => getSecondaryAddress f

/-- What the caller provides: numbers of type `int`, records the parser delivers (for XML with a computable storage number, C33) and frames the receiver accepts. -/
def TextCall.Proper : TextCall → Prop
  | .unitPrefix e => -2 ^ 31 ≤ e ∧ e < 2 ^ 31
  | .vib r | .decode r | .unit r | .value r => Delivered r
  | .headerXml e _ => e.length = 768
  | .recordXml e r stamp cnt frame => e.length = 768 ∧ Delivered r ∧ (¬ Special r → StorageOk r) ∧ StampOk stamp ∧ 0 ≤ cnt ∧ cnt < 2 ^ 31 ∧ -1 ≤ frame ∧ frame < 2 ^ 31
  | .address f => ∃ a, getSecondaryAddress f = .ok a
  | _ => True

/-- The static arrays have their sizes (the content is arbitrary). -/
def Sized (s : Statics) : Prop := ∀ b : SBuf, (s b).length = b.cap

/-- A history of calls, each with any outcome. -/
def runTexts : List TextCall → Statics → C Statics
  | [], s => .ok s
  | c :: cs, s => do
      let (_, s) ← c.run s
      runTexts cs s

end Mbus.Spec
