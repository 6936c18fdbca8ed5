import Verif.Model.Record
import Verif.Spec.Num
/-
Specification for property C108: the catalogue of products, one entry per product, sorted by name.  Written from the documentation of the
devices as reflected in mbus-protocol.c:916-1366; unlike there, the entries are independent of each other and of their order.
-/
namespace Mbus.Spec

/-- media an entry is limited to -/
inductive Media where
  | any
  | only (m : Nat)
  | allBut (m : Nat)

def Media.has : Media → Nat → Prop
  | .any, _ => True
  | .only m, x => x = m
  | .allBut m, x => x ≠ m

/-- An entry: the product, the letters of its manufacturer (several: sold by several), the media, and the codes, which stand in the version
byte or (`byId`) in the two most significant digits of the identification number. -/
structure Product where
  name : List Byte
  makers : List (List Byte)
  codes : List (Nat × Nat)
  media : Media := .any
  byId : Bool := false

/-- The manufacturer number of three capital letters. -/
def flagNumber : List Byte → Nat
  | [a, b, c] => flagId a b c
  | _ => 0

/-- The header belongs to the product. -/
def Product.Fits (p : Product) (h : VarHeader) : Prop :=
  (∃ m ∈ p.makers, leNat h.manufacturer.bytes = flagNumber m) ∧ p.media.has h.medium.toNat ∧
  ∃ c ∈ p.codes, c.1 ≤ (if p.byId then h.idBcd.bytes.getLastD 0 else h.version).toNat ∧
    (if p.byId then h.idBcd.bytes.getLastD 0 else h.version).toNat ≤ c.2

/-- one code -/
def one (n : Nat) : Nat × Nat := (n, n)

def catalogue : List Product := [
  ⟨cs! "ABB B21 113-100", [cs! "ABB"], [one 0x20], .any, false⟩,
  ⟨cs! "ABB Delta-Meter", [cs! "ABB"], [one 0x02], .any, false⟩,
  ⟨cs! "ABB F95 Typ US770", [cs! "HYD"], [one 0x28], .any, false⟩,
  ⟨cs! "Allmess Megacontrol CF-50", [cs! "SLB"], [one 0x02], .any, false⟩,
  ⟨cs! "Aquametro AMTRON", [cs! "AMT"], [(0x00, 0x3F)], .any, false⟩,
  ⟨cs! "Aquametro CALEC MB", [cs! "AMT"], [(0x80, 0xBF)], .any, false⟩,
  ⟨cs! "Aquametro CALEC ST", [cs! "AMT"], [(0xC0, 0xFF)], .any, false⟩,
  ⟨cs! "Aquametro SAPHIR", [cs! "AMT"], [(0x40, 0x7F)], .any, false⟩,
  ⟨cs! "Berg BLMi", [cs! "BEC"], [one 0x07], .only 0x02, false⟩,
  ⟨cs! "Berg BMB-10S0", [cs! "BEC"], [one 0x71], .only 0x0F, false⟩,
  ⟨cs! "Berg DCMi", [cs! "BEC"], [one 0x00], .only 0x02, false⟩,
  ⟨cs! "CF Compact / Integral MK MaXX", [cs! "SLB"], [one 0x06], .any, false⟩,
  ⟨cs! "Carlo Gavazzi EM21", [cs! "GAV"], [(0x39, 0x3A)], .only 0x02, false⟩,
  ⟨cs! "Carlo Gavazzi EM24", [cs! "GAV"], [(0x2D, 0x30)], .only 0x02, false⟩,
  ⟨cs! "Carlo Gavazzi EM33", [cs! "GAV"], [one 0x40], .only 0x02, false⟩,
  ⟨cs! "EMH DIZ", [cs! "EMH"], [one 0x00], .any, false⟩,
  ⟨cs! "EMU Professional 3/75 M-Bus", [cs! "EMU"], [one 0x10], .only 0x02, false⟩,
  ⟨cs! "Elster F2 / Deltamess F2", [cs! "SVM"], [one 0x08], .any, false⟩,
  ⟨cs! "Elster F4 / Kamstrup SVM F22", [cs! "SVM"], [one 0x09], .any, false⟩,
  ⟨cs! "Elster F96 Plus", [cs! "ELS"], [one 0x2F], .any, false⟩,
  ⟨cs! "Elster Falcon", [cs! "ELS"], [one 0x0A], .any, false⟩,
  ⟨cs! "Elster TMP-A", [cs! "ELS"], [one 0x02], .any, false⟩,
  ⟨cs! "Elvaco CMa10", [cs! "ELV"], [(0x14, 0x1D)], .any, false⟩,
  ⟨cs! "Elvaco CMa11", [cs! "ELV"], [(0x32, 0x3B)], .any, false⟩,
  ⟨cs! "Engelmann / Elster SensoStar 2", [cs! "EFE"], [one 0x00], .allBut 0x06, false⟩,
  ⟨cs! "Engelmann SensoStar 2C", [cs! "EFE"], [one 0x01], .any, false⟩,
  ⟨cs! "Engelmann WaterStar", [cs! "EFE"], [one 0x00], .only 0x06, false⟩,
  ⟨cs! "GMC-I A230 EMMOD 206", [cs! "GMC"], [one 0xE6], .any, false⟩,
  ⟨cs! "Hydrometer Sharky 775", [cs! "HYD"], [one 0x2F], .any, false⟩,
  ⟨cs! "Ista sensonic II mbus", [cs! "RKE"], [one 0x69], .any, false⟩,
  ⟨cs! "Itron BM +m", [cs! "ACW"], [one 0x0E], .any, false⟩,
  ⟨cs! "Itron CF 51", [cs! "ACW"], [one 0x0A], .any, false⟩,
  ⟨cs! "Itron CF 55", [cs! "ACW"], [one 0x0B], .any, false⟩,
  ⟨cs! "Itron CF 800", [cs! "ACW"], [one 0x0F], .any, false⟩,
  ⟨cs! "Itron CF Echo 2", [cs! "ACW"], [one 0x09], .any, false⟩,
  ⟨cs! "Itron CYBLE M-Bus 1.4", [cs! "ACW"], [one 0x14], .any, false⟩,
  ⟨cs! "Janitza UMG 96S", [cs! "JAN"], [one 0x09], .only 0x02, false⟩,
  ⟨cs! "Kamstrup 382 (6850-005)", [cs! "KAM"], [one 0x01], .any, false⟩,
  ⟨cs! "Kamstrup Multical 601", [cs! "KAM"], [one 0x08], .any, false⟩,
  ⟨cs! "Landis & Gyr Ultraheat 2WR5", [cs! "LUG"], [one 0x02], .any, false⟩,
  ⟨cs! "Landis & Gyr Ultraheat 2WR6", [cs! "LUG"], [one 0x03], .any, false⟩,
  ⟨cs! "Landis & Gyr Ultraheat T230", [cs! "LUG"], [one 0x07], .any, false⟩,
  ⟨cs! "Landis & Gyr Ultraheat UH50", [cs! "LUG"], [one 0x04], .any, false⟩,
  ⟨cs! "Minol Minocal C2", [cs! "ZRM"], [one 0x81], .any, false⟩,
  ⟨cs! "Minol Minocal WR3", [cs! "ZRM"], [one 0x82], .any, false⟩,
  ⟨cs! "Modularis ETW-EAX", [cs! "WZG"], [one 0x03], .any, false⟩,
  ⟨cs! "NZR DHZ 5/63", [cs! "NZR"], [one 0x01], .any, false⟩,
  ⟨cs! "NZR IC-M2", [cs! "NZR"], [one 0x50], .any, false⟩,
  ⟨cs! "Relay AnDi 4", [cs! "REL"], [one 0x30], .any, false⟩,
  ⟨cs! "Relay PadPuls M1", [cs! "REL"], [one 0x08], .any, false⟩,
  ⟨cs! "Relay PadPuls M2", [cs! "REL"], [one 0x40], .any, false⟩,
  ⟨cs! "Relay PadPuls M4", [cs! "REL"], [one 0x12], .any, false⟩,
  ⟨cs! "Relay Padin 4", [cs! "REL"], [one 0x20], .any, false⟩,
  ⟨cs! "Rossweiner ETK/ETW Modularis", [cs! "RAM"], [one 0x03], .any, false⟩,
  ⟨cs! "Saia-Burgess ALE3", [cs! "SBC"], [one 0x10, one 0x19], .any, true⟩,
  ⟨cs! "Saia-Burgess AWD3", [cs! "SBC"], [one 0x11], .any, true⟩,
  ⟨cs! "Sensoco 2-NTC", [cs! "SEO", cs! "GTE"], [one 0x41], .any, true⟩,
  ⟨cs! "Sensoco ADIO", [cs! "SEO", cs! "GTE"], [one 0x48], .any, true⟩,
  ⟨cs! "Sensoco Laser Light", [cs! "SEO", cs! "GTE"], [one 0x45], .any, true⟩,
  ⟨cs! "Sensoco PT100", [cs! "SEO", cs! "GTE"], [one 0x30], .any, true⟩,
  ⟨cs! "Sensoco PulseCounter for E-Meter", [cs! "SEO", cs! "GTE"], [one 0x80], .any, true⟩,
  ⟨cs! "Sensoco THU", [cs! "SEO", cs! "GTE"], [one 0x51, one 0x61], .any, true⟩,
  ⟨cs! "Sensus PolluCom E", [cs! "SEN"], [one 0x08, one 0x19], .any, false⟩,
  ⟨cs! "Sensus PolluStat E", [cs! "SEN"], [one 0x0E], .any, false⟩,
  ⟨cs! "Sensus PolluTherm", [cs! "SEN"], [one 0x0B], .any, false⟩,
  ⟨cs! "Sensus PolluTherm", [cs! "SPX"], [one 0x31, one 0x34], .any, false⟩,
  ⟨cs! "Siemens WFH21", [cs! "LSE"], [one 0x99], .any, false⟩,
  ⟨cs! "Sontex Supercal 531", [cs! "SON"], [one 0x0D], .any, false⟩,
  ⟨cs! "Techem m-bus S", [cs! "TCH"], [one 0x26], .any, false⟩,
  ⟨cs! "Techem ultra S3", [cs! "TCH"], [one 0x40], .any, false⟩]

end Mbus.Spec
