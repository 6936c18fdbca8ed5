import Verif.Model.Locale
import Verif.Spec.Tools
import Verif.Spec.XmlExact
/-
What it means for a document written in one locale to be the same as in another (used by C129).
-/
namespace Mbus.Spec

/-- An ordinary eight-bit or UTF-8 locale with decimal point `p`: the control characters of ASCII are those of ASCII (the bytes
0-31 and 127), the decimal point is one visible byte, not a control character and not one that XML treats specially. -/
structure Ordinary (L : Locale) (p : Byte) : Prop where
  point : L.point = [p]
  ascii : ∀ b : Byte, b.toNat < 128 → (L.cntrl b = true ↔ b.toNat < 32 ∨ b.toNat = 127)
  visible : p ≠ 0 ∧ L.cntrl p = false
  notMarkup : p ≠ 38 ∧ p ≠ 60 ∧ p ≠ 62 ∧ p ≠ 34

/-- `Translated L p since x y`: `y` is `x` except that a full stop inside a `Value` element may have become `p` and a byte
outside ASCII that locale `L` calls a control character may have become a blank.  `since` is the part of the document from the
last `<` up to the beginning of `x`. -/
inductive Translated (L : Locale) (p : Byte) : (since x y : List Byte) → Prop
  | done (s : List Byte) : Translated L p s [] []
  | same (s : List Byte) (c : Byte) (x y : List Byte) :
      Translated L p (if c = 60 then [60] else s ++ [c]) x y → Translated L p s (c :: x) (c :: y)
  | point (s x y : List Byte) : cs! "<Value>" <+: s →
      Translated L p (s ++ [46]) x y → Translated L p s (46 :: x) (p :: y)
  | blank (s : List Byte) (c : Byte) (x y : List Byte) : 128 ≤ c.toNat → L.cntrl c = true →
      Translated L p (s ++ [c]) x y → Translated L p s (c :: x) (32 :: y)

/-- Two computations end the same way: with the same undefined behaviour, or both with results, which are related by `R`. -/
inductive SameWay {α β : Type} (R : α → β → Prop) : C α → C β → Prop
  | result (a : α) (b : β) : R a b → SameWay R (.ok a) (.ok b)
  | fault (e : Fault) : SameWay R (.error e) (.error e)

/-- The results of two calls: both NULL, or two documents of which the second translates the first. -/
inductive SameDoc (L : Locale) (p : Byte) : Option (List Byte) → Option (List Byte) → Prop
  | null : SameDoc L p none none
  | doc (x y : List Byte) : Translated L p [] x y → SameDoc L p (some x) (some y)

/-- A decimal numeral: an optional minus sign, digits, a full stop, digits. -/
def DecimalNumeral (s : List Byte) : Prop :=
  ∃ sign whole frac : List Byte, (sign = [] ∨ sign = cs! "-") ∧ whole ≠ [] ∧ frac ≠ [] ∧
    (∀ c ∈ whole, IsDec c) ∧ (∀ c ∈ frac, IsDec c) ∧ s = sign ++ whole ++ cs! "." ++ frac

/-- A locale whose control characters among the bytes of ASCII are those of ASCII, and whose decimal point is a C string of at most
16 bytes (`MB_LEN_MAX`). -/
structure Ascii (L : Locale) : Prop where
  ascii : ∀ b : Byte, b.toNat < 128 → (L.cntrl b = true ↔ b.toNat < 32 ∨ b.toNat = 127)
  point : (0 : Byte) ∉ L.point ∧ L.point.length ≤ 16

/-- A text whose bytes outside ASCII that are control characters of the locale are blanks. -/
def blanked (L : Locale) (s : List Byte) : List Byte := s.map fun c => if 128 ≤ c.toNat ∧ L.cntrl c = true then 32 else c

/-- The text shown for a record: the full stop of a 32-bit real is the decimal point of the locale. -/
def shownIn (L : Locale) (r : Record) : List Byte :=
  match meaning r with
  | .real _ => (shown r).flatMap fun c => if c = 46 then L.point else [c]
  | _ => shown r

/-- `recordGroupCut` in a locale: unit and value are blanked, the value is `shownIn`. -/
def recordGroupIn (L : Locale) (id : Nat) (frame : Option Nat) (r : Record) (unit : List Byte) (stamp : Option (List Byte)) : Group :=
  let difes := r.dife.bytes.take r.ndife
  { name := cs! "DataRecord"
    attrs := (cs! "id", dec id) :: (match frame with | some k => [(cs! "frame", dec k)] | none => [])
    leaves :=
      (cs! "Function", functionLabel r) ::
      (if Special r then []
       else
        (cs! "StorageNumber", dec (storageOf r.dif difes)) ::
        (if difes = [] then [] else [(cs! "Tariff", dec (tariffOf difes)), (cs! "Device", dec (deviceOf difes))]) ++
        [(cs! "Unit", escapeInto 768 (blanked L unit))]) ++
      (cs! "Value", escapeInto 768 (blanked L (upToNul (shownIn L r)))) ::
      (match stamp with | some t => [(cs! "Timestamp", t)] | none => []) }

/-- The data records of one telegram. -/
def recordGroupsIn (L : Locale) (frame : Option Nat) : (start : Nat) → List Item → List Group
  | _, [] => []
  | id, (r, u, stamp) :: its => recordGroupIn L id frame r u stamp :: recordGroupsIn L frame (id + 1) its

/-- The data records of several telegrams. -/
def telegramGroupsIn (L : Locale) : (start : Nat) → (frame : Nat) → List (List Item) → List Group
  | _, _, [] => []
  | id, k, its :: rest => recordGroupsIn L (some k) id its ++ telegramGroupsIn L (id + its.length) (k + 1) rest

/-- The text of a normalised value: numbers are written with the decimal point of the locale. -/
def normTextIn (L : Locale) (n : NRecord) : List Byte :=
  match n.value with
  | .num x => (fmtF x).flatMap fun c => if c = 46 then L.point else [c]
  | .str s _ => escapeInto 768 (blanked L (upToNul s))

/-- `normGroupCut` in a locale. -/
def normGroupIn (L : Locale) (id : Nat) (n : Option NRecord) : Group :=
  { name := cs! "DataRecord"
    attrs := [(cs! "id", dec id)]
    leaves :=
      match n with
      | none => []
      | some n =>
        [(cs! "Function", escapeInto 768 (blanked L n.function)), (cs! "StorageNumber", fmtInt n.storage)] ++
        (if n.tariff ≥ 0 then [(cs! "Tariff", fmtInt n.tariff), (cs! "Device", fmtInt n.device)] else []) ++
        [(cs! "Unit", escapeInto 768 (blanked L (n.unit.getD []))), (cs! "Quantity", escapeInto 768 (blanked L (n.quantity.getD []))),
         (cs! "Value", normTextIn L n)] }

/-- The groups of normalised records. -/
def normGroupsIn (L : Locale) (start : Nat) (ns : List (Option NRecord)) : List Group := (ns.zipIdx start).map fun p => normGroupIn L p.2 p.1

/-- All records of a readout. -/
def readoutGroupsIn (L : Locale) : List (List Item) → List Group
  | [its] => recordGroupsIn L none 0 its
  | tss => telegramGroupsIn L 0 0 tss

end Mbus.Spec
