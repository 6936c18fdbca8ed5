import Verif.Model.CStr
/-
The rules of `mbus_data_product_name` (mbus-protocol.c:916-1366), transcribed by tools/gen_labels.py.  One entry per
`if/else if` branch on the manufacturer; inside it one rule per `case` (or per comparison `version >= n`), in the order
of the C code; the first rule that applies gives the label.
-/
namespace Mbus

/-- One `strcpy` of mbus-protocol.c:916-1366: guarded by `lo ≤ key ≤ hi` where the key is `id_bcd[3]` or `version`, and by
the medium if one is given. -/
structure ProdRule where
  onId3 : Bool
  medium : Option Nat
  lo : Nat
  hi : Nat
  label : List Byte

/-- branch ABB -/
def prodABB : List (List Byte) × List ProdRule :=
  ([cs! "ABB"], [
    ⟨false, none, 0x02, 0x02, cs! "ABB Delta-Meter"⟩,
    ⟨false, none, 0x20, 0x20, cs! "ABB B21 113-100"⟩])

/-- branch ACW -/
def prodACW : List (List Byte) × List ProdRule :=
  ([cs! "ACW"], [
    ⟨false, none, 0x09, 0x09, cs! "Itron CF Echo 2"⟩,
    ⟨false, none, 0x0A, 0x0A, cs! "Itron CF 51"⟩,
    ⟨false, none, 0x0B, 0x0B, cs! "Itron CF 55"⟩,
    ⟨false, none, 0x0E, 0x0E, cs! "Itron BM +m"⟩,
    ⟨false, none, 0x0F, 0x0F, cs! "Itron CF 800"⟩,
    ⟨false, none, 0x14, 0x14, cs! "Itron CYBLE M-Bus 1.4"⟩])

/-- branch AMT -/
def prodAMT : List (List Byte) × List ProdRule :=
  ([cs! "AMT"], [
    ⟨false, none, 0xC0, 0xFF, cs! "Aquametro CALEC ST"⟩,
    ⟨false, none, 0x80, 0xFF, cs! "Aquametro CALEC MB"⟩,
    ⟨false, none, 0x40, 0xFF, cs! "Aquametro SAPHIR"⟩,
    ⟨false, none, 0x00, 0xFF, cs! "Aquametro AMTRON"⟩])

/-- branch BEC -/
def prodBEC : List (List Byte) × List ProdRule :=
  ([cs! "BEC"], [
    ⟨false, some 2, 0x00, 0x00, cs! "Berg DCMi"⟩,
    ⟨false, some 2, 0x07, 0x07, cs! "Berg BLMi"⟩,
    ⟨false, some 15, 0x71, 0x71, cs! "Berg BMB-10S0"⟩])

/-- branch EFE -/
def prodEFE : List (List Byte) × List ProdRule :=
  ([cs! "EFE"], [
    ⟨false, some 6, 0x00, 0x00, cs! "Engelmann WaterStar"⟩,
    ⟨false, none, 0x00, 0x00, cs! "Engelmann / Elster SensoStar 2"⟩,
    ⟨false, none, 0x01, 0x01, cs! "Engelmann SensoStar 2C"⟩])

/-- branch ELS -/
def prodELS : List (List Byte) × List ProdRule :=
  ([cs! "ELS"], [
    ⟨false, none, 0x02, 0x02, cs! "Elster TMP-A"⟩,
    ⟨false, none, 0x0A, 0x0A, cs! "Elster Falcon"⟩,
    ⟨false, none, 0x2F, 0x2F, cs! "Elster F96 Plus"⟩])

/-- branch ELV -/
def prodELV : List (List Byte) × List ProdRule :=
  ([cs! "ELV"], [
    ⟨false, none, 0x14, 0x14, cs! "Elvaco CMa10"⟩,
    ⟨false, none, 0x15, 0x15, cs! "Elvaco CMa10"⟩,
    ⟨false, none, 0x16, 0x16, cs! "Elvaco CMa10"⟩,
    ⟨false, none, 0x17, 0x17, cs! "Elvaco CMa10"⟩,
    ⟨false, none, 0x18, 0x18, cs! "Elvaco CMa10"⟩,
    ⟨false, none, 0x19, 0x19, cs! "Elvaco CMa10"⟩,
    ⟨false, none, 0x1A, 0x1A, cs! "Elvaco CMa10"⟩,
    ⟨false, none, 0x1B, 0x1B, cs! "Elvaco CMa10"⟩,
    ⟨false, none, 0x1C, 0x1C, cs! "Elvaco CMa10"⟩,
    ⟨false, none, 0x1D, 0x1D, cs! "Elvaco CMa10"⟩,
    ⟨false, none, 0x32, 0x32, cs! "Elvaco CMa11"⟩,
    ⟨false, none, 0x33, 0x33, cs! "Elvaco CMa11"⟩,
    ⟨false, none, 0x34, 0x34, cs! "Elvaco CMa11"⟩,
    ⟨false, none, 0x35, 0x35, cs! "Elvaco CMa11"⟩,
    ⟨false, none, 0x36, 0x36, cs! "Elvaco CMa11"⟩,
    ⟨false, none, 0x37, 0x37, cs! "Elvaco CMa11"⟩,
    ⟨false, none, 0x38, 0x38, cs! "Elvaco CMa11"⟩,
    ⟨false, none, 0x39, 0x39, cs! "Elvaco CMa11"⟩,
    ⟨false, none, 0x3A, 0x3A, cs! "Elvaco CMa11"⟩,
    ⟨false, none, 0x3B, 0x3B, cs! "Elvaco CMa11"⟩])

/-- branch EMH -/
def prodEMH : List (List Byte) × List ProdRule :=
  ([cs! "EMH"], [
    ⟨false, none, 0x00, 0x00, cs! "EMH DIZ"⟩])

/-- branch EMU -/
def prodEMU : List (List Byte) × List ProdRule :=
  ([cs! "EMU"], [
    ⟨false, some 2, 0x10, 0x10, cs! "EMU Professional 3/75 M-Bus"⟩])

/-- branch GAV -/
def prodGAV : List (List Byte) × List ProdRule :=
  ([cs! "GAV"], [
    ⟨false, some 2, 0x2D, 0x2D, cs! "Carlo Gavazzi EM24"⟩,
    ⟨false, some 2, 0x2E, 0x2E, cs! "Carlo Gavazzi EM24"⟩,
    ⟨false, some 2, 0x2F, 0x2F, cs! "Carlo Gavazzi EM24"⟩,
    ⟨false, some 2, 0x30, 0x30, cs! "Carlo Gavazzi EM24"⟩,
    ⟨false, some 2, 0x39, 0x39, cs! "Carlo Gavazzi EM21"⟩,
    ⟨false, some 2, 0x3A, 0x3A, cs! "Carlo Gavazzi EM21"⟩,
    ⟨false, some 2, 0x40, 0x40, cs! "Carlo Gavazzi EM33"⟩])

/-- branch GMC -/
def prodGMC : List (List Byte) × List ProdRule :=
  ([cs! "GMC"], [
    ⟨false, none, 0xE6, 0xE6, cs! "GMC-I A230 EMMOD 206"⟩])

/-- branch KAM -/
def prodKAM : List (List Byte) × List ProdRule :=
  ([cs! "KAM"], [
    ⟨false, none, 0x01, 0x01, cs! "Kamstrup 382 (6850-005)"⟩,
    ⟨false, none, 0x08, 0x08, cs! "Kamstrup Multical 601"⟩])

/-- branch SLB -/
def prodSLB : List (List Byte) × List ProdRule :=
  ([cs! "SLB"], [
    ⟨false, none, 0x02, 0x02, cs! "Allmess Megacontrol CF-50"⟩,
    ⟨false, none, 0x06, 0x06, cs! "CF Compact / Integral MK MaXX"⟩])

/-- branch HYD -/
def prodHYD : List (List Byte) × List ProdRule :=
  ([cs! "HYD"], [
    ⟨false, none, 0x28, 0x28, cs! "ABB F95 Typ US770"⟩,
    ⟨false, none, 0x2F, 0x2F, cs! "Hydrometer Sharky 775"⟩])

/-- branch JAN -/
def prodJAN : List (List Byte) × List ProdRule :=
  ([cs! "JAN"], [
    ⟨false, some 2, 0x09, 0x09, cs! "Janitza UMG 96S"⟩])

/-- branch LUG -/
def prodLUG : List (List Byte) × List ProdRule :=
  ([cs! "LUG"], [
    ⟨false, none, 0x02, 0x02, cs! "Landis & Gyr Ultraheat 2WR5"⟩,
    ⟨false, none, 0x03, 0x03, cs! "Landis & Gyr Ultraheat 2WR6"⟩,
    ⟨false, none, 0x04, 0x04, cs! "Landis & Gyr Ultraheat UH50"⟩,
    ⟨false, none, 0x07, 0x07, cs! "Landis & Gyr Ultraheat T230"⟩])

/-- branch LSE -/
def prodLSE : List (List Byte) × List ProdRule :=
  ([cs! "LSE"], [
    ⟨false, none, 0x99, 0x99, cs! "Siemens WFH21"⟩])

/-- branch NZR -/
def prodNZR : List (List Byte) × List ProdRule :=
  ([cs! "NZR"], [
    ⟨false, none, 0x01, 0x01, cs! "NZR DHZ 5/63"⟩,
    ⟨false, none, 0x50, 0x50, cs! "NZR IC-M2"⟩])

/-- branch RAM -/
def prodRAM : List (List Byte) × List ProdRule :=
  ([cs! "RAM"], [
    ⟨false, none, 0x03, 0x03, cs! "Rossweiner ETK/ETW Modularis"⟩])

/-- branch REL -/
def prodREL : List (List Byte) × List ProdRule :=
  ([cs! "REL"], [
    ⟨false, none, 0x08, 0x08, cs! "Relay PadPuls M1"⟩,
    ⟨false, none, 0x12, 0x12, cs! "Relay PadPuls M4"⟩,
    ⟨false, none, 0x20, 0x20, cs! "Relay Padin 4"⟩,
    ⟨false, none, 0x30, 0x30, cs! "Relay AnDi 4"⟩,
    ⟨false, none, 0x40, 0x40, cs! "Relay PadPuls M2"⟩])

/-- branch RKE -/
def prodRKE : List (List Byte) × List ProdRule :=
  ([cs! "RKE"], [
    ⟨false, none, 0x69, 0x69, cs! "Ista sensonic II mbus"⟩])

/-- branch SBC -/
def prodSBC : List (List Byte) × List ProdRule :=
  ([cs! "SBC"], [
    ⟨true, none, 0x10, 0x10, cs! "Saia-Burgess ALE3"⟩,
    ⟨true, none, 0x19, 0x19, cs! "Saia-Burgess ALE3"⟩,
    ⟨true, none, 0x11, 0x11, cs! "Saia-Burgess AWD3"⟩])

/-- branch SEO / GTE -/
def prodSEO : List (List Byte) × List ProdRule :=
  ([cs! "SEO", cs! "GTE"], [
    ⟨true, none, 0x30, 0x30, cs! "Sensoco PT100"⟩,
    ⟨true, none, 0x41, 0x41, cs! "Sensoco 2-NTC"⟩,
    ⟨true, none, 0x45, 0x45, cs! "Sensoco Laser Light"⟩,
    ⟨true, none, 0x48, 0x48, cs! "Sensoco ADIO"⟩,
    ⟨true, none, 0x51, 0x51, cs! "Sensoco THU"⟩,
    ⟨true, none, 0x61, 0x61, cs! "Sensoco THU"⟩,
    ⟨true, none, 0x80, 0x80, cs! "Sensoco PulseCounter for E-Meter"⟩])

/-- branch SEN -/
def prodSEN : List (List Byte) × List ProdRule :=
  ([cs! "SEN"], [
    ⟨false, none, 0x08, 0x08, cs! "Sensus PolluCom E"⟩,
    ⟨false, none, 0x19, 0x19, cs! "Sensus PolluCom E"⟩,
    ⟨false, none, 0x0B, 0x0B, cs! "Sensus PolluTherm"⟩,
    ⟨false, none, 0x0E, 0x0E, cs! "Sensus PolluStat E"⟩])

/-- branch SON -/
def prodSON : List (List Byte) × List ProdRule :=
  ([cs! "SON"], [
    ⟨false, none, 0x0D, 0x0D, cs! "Sontex Supercal 531"⟩])

/-- branch SPX -/
def prodSPX : List (List Byte) × List ProdRule :=
  ([cs! "SPX"], [
    ⟨false, none, 0x31, 0x31, cs! "Sensus PolluTherm"⟩,
    ⟨false, none, 0x34, 0x34, cs! "Sensus PolluTherm"⟩])

/-- branch SVM -/
def prodSVM : List (List Byte) × List ProdRule :=
  ([cs! "SVM"], [
    ⟨false, none, 0x08, 0x08, cs! "Elster F2 / Deltamess F2"⟩,
    ⟨false, none, 0x09, 0x09, cs! "Elster F4 / Kamstrup SVM F22"⟩])

/-- branch TCH -/
def prodTCH : List (List Byte) × List ProdRule :=
  ([cs! "TCH"], [
    ⟨false, none, 0x26, 0x26, cs! "Techem m-bus S"⟩,
    ⟨false, none, 0x40, 0x40, cs! "Techem ultra S3"⟩])

/-- branch WZG -/
def prodWZG : List (List Byte) × List ProdRule :=
  ([cs! "WZG"], [
    ⟨false, none, 0x03, 0x03, cs! "Modularis ETW-EAX"⟩])

/-- branch ZRM -/
def prodZRM : List (List Byte) × List ProdRule :=
  ([cs! "ZRM"], [
    ⟨false, none, 0x81, 0x81, cs! "Minol Minocal C2"⟩,
    ⟨false, none, 0x82, 0x82, cs! "Minol Minocal WR3"⟩])

/-- mbus-protocol.c:930-1360: all branches in order -/
def productRules : List (List (List Byte) × List ProdRule) := [
  prodABB, prodACW, prodAMT, prodBEC, prodEFE, prodELS, prodELV, prodEMH, prodEMU, prodGAV, prodGMC, prodKAM, prodSLB, prodHYD, prodJAN, prodLUG, prodLSE, prodNZR, prodRAM, prodREL, prodRKE, prodSBC, prodSEO, prodSEN, prodSON, prodSPX, prodSVM, prodTCH, prodWZG, prodZRM]

end Mbus
