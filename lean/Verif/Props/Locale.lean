import Verif.Lemmas.LocaleExact
import Verif.Props.XmlExact
/-
Property theorems C129: the documents and values in the locale of the host program (`Locale` from Model/Locale.lean; `Ordinary`,
`Translated`, `DecimalNumeral`, `shownIn`, `readoutGroupsIn` from Spec/Locale.lean).
-/
namespace Mbus
open Spec

variable {L : Locale} {p : Byte}

/-- C129: the functions without a locale parameter, which the other theorems are about, are the functions in the "C" locale. -/
theorem C129_c_locale : frameXmlIn .c = frameXml ∧ frameDataXmlIn .c = frameDataXml ∧ frameDataXmlNormalizedIn .c = frameDataXmlNormalized ∧
    variableXmlIn .c = variableXml ∧ recordXmlIn .c = recordXml ∧ recordValueIn .c = recordValue :=
  ⟨cLocale_frameXml, cLocale_frameDataXml, cLocale_frameDataXmlNormalized, cLocale_variableXml, cLocale_recordXml, cLocale_recordValue⟩

/-- C129 for `mbus_frame_xml`, every chain of telegrams and every content of the memory: the call ends as in the "C" locale (also in
undefined behaviour), loses the same memory, and its document is a translation of the one in the "C" locale. -/
theorem C129_xml (hL : Ordinary L p) (junk0 : Nat → Byte) (junk : Nat → Nat → Byte) (t : Telegram) (ts : List Telegram) :
    SameWay (fun x y => SameDoc L p x.text y.text ∧ y.lostBuffer = x.lostBuffer ∧ y.lostRecords = x.lostRecords)
      (frameXml junk0 junk t ts) (frameXmlIn L junk0 junk t ts) :=
  frameXml_twin hL junk0 junk t ts

/-- C129 for `mbus_frame_data_xml`. -/
theorem C129_data (hL : Ordinary L p) (junk0 : Nat → Byte) (junk : Nat → Nat → Byte) (x : FrameData) (stamps : List (Option (List Byte))) :
    SameWay (SameDoc L p) (frameDataXml junk0 junk x stamps) (frameDataXmlIn L junk0 junk x stamps) :=
  frameDataXml_twin hL junk0 junk x stamps

/-- C129 for `mbus_frame_data_xml_normalized`. -/
theorem C129_normalized (hL : Ordinary L p) (junk0 : Nat → Byte) (junk : Nat → Nat → Byte) (x : FrameData) :
    SameWay (SameDoc L p) (frameDataXmlNormalized junk0 junk x) (frameDataXmlNormalizedIn L junk0 junk x) :=
  frameDataXmlNormalized_twin hL junk0 junk x

/-! ### values -/

theorem real_number {r : Record} {neg : Bool} {m : Rat} (hm : meaning r = .real (.fin neg m)) :
    ∃ sign whole frac : List Byte, (sign = [] ∨ sign = cs! "-") ∧ whole ≠ [] ∧ frac.length = 6 ∧ (∀ c ∈ whole, IsDec c) ∧
      (∀ c ∈ frac, IsDec c) ∧ shown r = sign ++ whole ++ cs! "." ++ frac ∧ ∀ L, shownIn L r = sign ++ whole ++ L.point ++ frac := by
  have keep : ∀ l : List Byte, (46 : Byte) ∉ l → ∀ L : Locale, l.flatMap (fun c => if c = 46 then L.point else [c]) = l := by
    intro l hl L
    induction l with
    | nil => rfl
    | cons c l ih =>
      simp only [List.mem_cons, not_or] at hl
      rw [List.flatMap_cons, if_neg (fun h => hl.1 h.symm), ih hl.2]
      rfl
  have dig : ∀ l : List Byte, (∀ c ∈ l, 48 ≤ c.toNat ∧ c.toNat ≤ 57) → (46 : Byte) ∉ l := fun l h m => by
    have := h 46 m; revert this; decide
  have hs : shown r = (if neg then [45] else []) ++ decDigits (roundEven (m * 1000000) / 1000000) ++ [46] ++
      padZero 6 (decDigits (roundEven (m * 1000000) % 1000000)) := by
    unfold shown
    rw [hm]
    rfl
  have h1 := decDigits_digit (roundEven (m * 1000000) / 1000000)
  have h2 := padZero_digit 6 _ (decDigits_digit (roundEven (m * 1000000) % 1000000))
  have h3 : decDigits (roundEven (m * 1000000) / 1000000) ≠ [] := by
    rw [decDigits]
    split <;> simp
  have h4 : (padZero 6 (decDigits (roundEven (m * 1000000) % 1000000))).length = 6 := by
    have := decDigits_length (roundEven (m * 1000000) % 1000000) 6 (by decide) (Nat.mod_lt _ (by decide))
    unfold padZero
    simp only [List.length_append, List.length_replicate]
    omega
  generalize decDigits (roundEven (m * 1000000) / 1000000) = whole at *
  generalize padZero 6 (decDigits (roundEven (m * 1000000) % 1000000)) = frac at *
  refine ⟨_, whole, frac, ?_, h3, h4, h1, h2, hs, fun L => ?_⟩
  · cases neg
    · exact .inl rfl
    · exact .inr rfl
  · have s : (46 : Byte) ∉ (if neg then [45] else [] : List Byte) := by cases neg <;> decide
    unfold shownIn
    rw [hm, hs]
    simp only [List.flatMap_append, keep _ s, keep _ (dig _ h1), keep _ (dig _ h2), List.flatMap_cons, List.flatMap_nil,
      List.append_nil, if_true]

/-- C129: a 32-bit real in a record that the parser delivers is written as in the "C" locale, with six decimals, but for the decimal
point. -/
theorem C129_value (hL : Ascii L) (b : List Byte) (hb : b.length = 768) (r : Record) (hr : Delivered r) (neg : Bool) (m : Rat)
    (hm : meaning r = .real (.fin neg m)) :
    ∃ sign whole frac : List Byte, (sign = [] ∨ sign = cs! "-") ∧ whole ≠ [] ∧ frac.length = 6 ∧ (∀ c ∈ whole, IsDec c) ∧
      (∀ c ∈ frac, IsDec c) ∧ recordValue b r = .ok (sign ++ whole ++ cs! "." ++ frac) ∧
      recordValueIn L b r = .ok (sign ++ whole ++ L.point ++ frac) := by
  obtain ⟨sign, whole, frac, h1, h2, h3, h4, h5, h6, h7⟩ := real_number hm
  refine ⟨sign, whole, frac, h1, h2, h3, h4, h5, ?_, ?_⟩
  all_goals
    have z : ∀ l : List Byte, (∀ c ∈ l, IsDec c) → (0 : Byte) ∉ l := fun l h m => by
      have := h 0 m; revert this; decide
    have zs : (0 : Byte) ∉ sign := by rcases h1 with rfl | rfl <;> decide
    have hd : r.dataLen ≤ 234 ∧ (r.dif.toNat % 16 = 0xD → 1 ≤ r.dataLen) := ⟨hr.bounds.1, hr.bounds.2.1⟩
  · rw [recordValue_shown b r hb hd.1 hd.2, h6, upToNul_eq]
    simp only [List.mem_append, zs, z _ h4, z _ h5, or_false, false_or]
    decide
  · rw [recordValueIn_shown hL b r hb hd.1 hd.2, h7, upToNul_eq]
    simp only [List.mem_append, zs, z _ h4, z _ h5, or_false, false_or]
    exact hL.point.1

/-- C129: all other values are the same in every locale. -/
theorem C129_other_values (b : List Byte) (r : Record) (h : ∀ x, meaning r ≠ .real x) : recordValueIn L b r = recordValue b r := by
  unfold recordValueIn recordValue
  rw [recordDecode_other]
  intro hk
  have hk' : r.dif.toNat % 16 = 5 := by rw [← nibble_eq r.dif]; exact hk
  refine h (ieee32 (leNat (r.data.bytes.take 4))) ?_
  unfold meaning
  rw [hk']
  rfl

/-- A numeral holds a full stop. -/
theorem numeral_point {s : List Byte} (h : DecimalNumeral s) : (46 : Byte) ∈ s := by
  obtain ⟨_, _, _, _, _, _, _, _, rfl⟩ := h
  simp

/-- C129: where the decimal point is no full stop, the value of a 32-bit real is no decimal numeral any more. -/
theorem C129_comma (hL : Ascii L) (hp : (46 : Byte) ∉ L.point) (b : List Byte) (hb : b.length = 768) (r : Record) (hr : Delivered r)
    (neg : Bool) (m : Rat) (hm : meaning r = .real (.fin neg m)) :
    ∃ s t, recordValue b r = .ok s ∧ DecimalNumeral s ∧ recordValueIn L b r = .ok t ∧ ¬ DecimalNumeral t := by
  obtain ⟨sign, whole, frac, h1, h2, h3, h4, h5, h6, h7⟩ := C129_value hL b hb r hr neg m hm
  refine ⟨_, _, h6, ⟨sign, whole, frac, h1, h2, (fun h => by rw [h] at h3; cases h3), h4, h5, rfl⟩, h7, fun h => ?_⟩
  have hn := numeral_point h
  have z : ∀ l : List Byte, (∀ c ∈ l, IsDec c) → (46 : Byte) ∉ l := fun l h m => by
    have := h 46 m; revert this; decide
  have zs : (46 : Byte) ∉ sign := by rcases h1 with rfl | rfl <;> decide
  simp only [List.mem_append, zs, z _ h4, z _ h5, hp, or_false] at hn

/-! ### documents -/

/-- C129 for `mbus_frame_xml` and every chain of variable-data telegrams: the very document in a locale.  Its length decides, as in
the "C" locale, whether it is written outside the buffer, complete or cut. -/
theorem C129_frame (hL : Ascii L) (junk0 : Nat → Byte) (junk : Nat → Nat → Byte) (t : Telegram) (ts : List Telegram) (h : VarHeader)
    (its : List Item) (tss : List (List Item)) (hread : Reads t.1 h (its.map (·.1))) (hst : ∀ it ∈ its, it.2.2 = t.2)
    (hi : Pointwise ItemsOf ts tss) (hs : ∀ i ∈ its :: tss, ∀ it ∈ i, Writable it ∧ StampOk it.2.2)
    (hc : total (its :: tss) < 2 ^ 31) (hk : (its :: tss).length < 2 ^ 31) :
    ∃ p, productName h = .ok p ∧
      Meets (frameXmlIn L junk0 junk t ts) (fun m => ⟨some m, false, []⟩)
        (document (slaveGroup h p (blanked L (mediumLookup h.medium)) :: readoutGroupsIn L (its :: tss)))
        (xmlFate (startLength (slaveGroup h p (blanked L (mediumLookup h.medium)))) (whole (readoutGroupsIn L (its :: tss)))) := by
  obtain ⟨p, hp, _⟩ := productName_plain h
  exact ⟨p, hp, frameXmlIn_fares hL junk0 junk t ts its tss h p hp hread hst hi
    (fun i hm it hit => (hs i hm it hit).1.fit (items_delivered hread hi i hm it hit) (hs i hm it hit).2) hc hk⟩

/-- C129 for `mbus_data_variable_xml`: the very document. -/
theorem C129_variable (hL : Ascii L) (junk0 : Nat → Byte) (junk : Nat → Nat → Byte) (h : VarHeader) (its : List Item)
    (hd : ∀ it ∈ its, Delivered it.1 ∧ Writable it ∧ StampOk it.2.2) (hc : its.length < 2 ^ 31) :
    ∃ p, productName h = .ok p ∧
      Meets (variableXmlIn L junk0 junk h (its.map fun it => (it.1, it.2.2))) (fun m => m)
        (document (slaveGroup h p (blanked L (mediumLookup h.medium)) :: recordGroupsIn L none 0 its))
        (xmlFate (startLength (slaveGroup h p (blanked L (mediumLookup h.medium)))) (whole (recordGroupsIn L none 0 its))) := by
  obtain ⟨p, hp, _⟩ := productName_plain h
  exact ⟨p, hp, variableXmlIn_fares hL junk0 junk h p hp its (fun it hi => (hd it hi).2.1.fit (hd it hi).1 (hd it hi).2.2) hc⟩

/-- C129 for `mbus_frame_data_xml_normalized` and variable data: the very document, in which all numbers have the decimal point of the
locale. -/
theorem C129_normalized_frame (hL : Ascii L) (junk0 : Nat → Byte) (junk : Nat → Nat → Byte) (x : FrameData) (hx : x.type = DATA_VARIABLE)
    (hd : ∀ r ∈ x.var.records, Delivered r ∧ StorageOk r) :
    ∃ p ns, productName x.var.header = .ok p ∧ Pointwise (fun r n => ∃ j leak, parseVariableRecord j r = .ok (n, leak)) x.var.records ns ∧
      Meets (frameDataXmlNormalizedIn L junk0 junk x) some
        (document (slaveGroup x.var.header p (blanked L (mediumLookup x.var.header.medium)) :: normGroupsIn L 0 ns))
        (xmlFate (startLength (slaveGroup x.var.header p (blanked L (mediumLookup x.var.header.medium)))) ((normGroupsIn L 0 ns).map lineLengths)) := by
  obtain ⟨p, hp, _⟩ := productName_plain x.var.header
  obtain ⟨ns, h1, h2⟩ := variableXmlNormalizedIn_fares hL junk0 junk x.var p hp (fun r hr j => normalised_fit (hd r hr).1 (hd r hr).2 j)
  refine ⟨p, ns, hp, h1, ?_⟩
  unfold frameDataXmlNormalizedIn
  rw [hx, if_neg (by decide), if_pos rfl]
  generalize xmlFate _ _ = f at *
  generalize variableXmlNormalizedIn L junk0 junk x.var = y at *
  cases f with
  | outside =>
    obtain ⟨n, i, rfl⟩ := h2
    exact ⟨n, i, rfl⟩
  | complete =>
    obtain ⟨m, rfl, h3⟩ := h2
    exact ⟨m, rfl, h3⟩
  | cut n =>
    obtain ⟨m, rfl, h3⟩ := h2
    exact ⟨m, rfl, h3⟩

/-- C129 for fixed data and application errors, with both functions: the very documents. -/
theorem C129_fixed_error (hL : Ascii L) (junk0 : Nat → Byte) (junk : Nat → Nat → Byte) (x : FrameData) (stamps : List (Option (List Byte))) :
    (x.type = DATA_FIXED → ∃ m, frameDataXmlIn L junk0 junk x stamps = .ok (some m) ∧ frameDataXmlNormalizedIn L junk0 junk x = .ok (some m) ∧
      document (fixedGroups x.fix (fixedMedium x.fix) (fixedFunction x.fix.status.toNat) (blanked L (fixedUnit x.fix.cnt1Type.toNat))
        (blanked L (fixedUnit x.fix.cnt2Type.toNat))) ++ [0] <+: m) ∧
    (x.type = DATA_ERROR → ∃ m, frameDataXmlIn L junk0 junk x stamps = .ok (some m) ∧
      document [errorGroup (blanked L (errorLookup x.error))] ++ [0] <+: m) := by
  constructor
  · intro h
    obtain ⟨m, h1, h2⟩ := fixedXmlIn_runs hL junk0 x.fix
    refine ⟨m, ?_, ?_, h2⟩
    · unfold frameDataXmlIn
      rw [if_neg (by rw [h]; decide), if_pos h, h1]
      rfl
    · unfold frameDataXmlNormalizedIn
      rw [if_pos h, h1]
      rfl
  · intro h
    obtain ⟨m, h1, h2⟩ := errorXmlIn_runs hL junk0 x.error
    refine ⟨m, ?_, h2⟩
    unfold frameDataXmlIn
    rw [if_pos h, h1]
    rfl

/-! ### examples -/

/-- German with UTF-8. -/
def germanUtf8 : Locale := ⟨cs! ",", isCntrl⟩
/-- German with ISO 8859-1, where the bytes 80h-9Fh are control characters. -/
def germanLatin1 : Locale := ⟨cs! ",", fun b => isCntrl b || (128 ≤ b.toNat && b.toNat < 160)⟩
/-- Pashto with UTF-8: the decimal point is U+066B, two bytes. -/
def pashtoUtf8 : Locale := ⟨[0xD9, 0xAB], isCntrl⟩

theorem german_ordinary : Ordinary germanUtf8 44 ∧ Ordinary germanLatin1 44 ∧ Ordinary .c 46 :=
  ⟨⟨rfl, forall_byte (by decide +kernel), by decide, by decide⟩, ⟨rfl, forall_byte (by decide +kernel), by decide, by decide⟩,
    ⟨rfl, forall_byte (by decide +kernel), by decide, by decide⟩⟩
theorem german_ascii : Ascii germanUtf8 ∧ Ascii germanLatin1 ∧ Ascii pashtoUtf8 :=
  ⟨⟨forall_byte (by decide +kernel), by decide⟩, ⟨forall_byte (by decide +kernel), by decide⟩, ⟨forall_byte (by decide +kernel), by decide⟩⟩

/-- A telegram with the volume 1.5 as a 32-bit real. -/
def realTelegram : Frame := rsp 0x72 (hdr ++ [0x05, 0x13, 0, 0, 0xC0, 0x3F])
def realItem : Item := (mkRec (.value 0x05 [] 0x13 [] [] [0, 0, 0xC0, 0x3F]), cs! "Volume (m m^3)", none)

theorem real_reads : Reads realTelegram hdrHeader [realItem.1] :=
  reads_rsp [0x05, 0x13, 0, 0, 0xC0, 0x3F] (by decide) [.value 0x05 [] 0x13 [] [] [0, 0, 0xC0, 0x3F]] (.cons (dif := 0x05) (difes := []) (vif := 0x13) (text := []) (vifes := []) (data := [0, 0, 0xC0, 0x3F]) (bs := []) (rs := [])
    ⟨by decide, by decide, by decide, by decide, by decide, by decide, by decide, by decide, by decide,
      by unfold DataFits; rw [if_neg (by decide)]; rfl⟩ .nil)
theorem real_delivered : Delivered realItem.1 := real_reads.delivered _ (by simp)
theorem real_meaning : meaning realItem.1 = .real (.fin false (3 / 2)) := by
  have h : leNat (realItem.1.data.bytes.take 4) = 0x3FC00000 := by decide +kernel
  have e : meaning realItem.1 = .real (ieee32 (leNat (realItem.1.data.bytes.take 4))) := rfl
  rw [e, h]
  exact congrArg Meaning.real (by decide +kernel)
theorem real_written : Writable realItem ∧ StampOk realItem.2.2 :=
  ⟨⟨by decide +kernel, fun _ => ⟨by decide, by decide +kernel⟩⟩, fun t h => by cases h⟩

example := C129_xml german_ordinary.2.1 (fun _ => 7) (fun _ _ => 7) (realTelegram, none) [(volumeTelegram, none)]
/-- "1,500000" and no numeral -/
example : shown realItem.1 = cs! "1.500000" ∧ shownIn germanUtf8 realItem.1 = cs! "1,500000" ∧
    shownIn pashtoUtf8 realItem.1 = [49, 0xD9, 0xAB, 53, 48, 48, 48, 48, 48] := by decide +kernel
example := C129_value german_ascii.2.2 (List.replicate 768 0) List.length_replicate realItem.1 real_delivered _ _ real_meaning
example := C129_comma german_ascii.1 (by decide) (List.replicate 768 0) List.length_replicate realItem.1 real_delivered _ _ real_meaning
example := C129_other_values (L := germanUtf8) (List.replicate 768 0) volumeItem.1 (fun x h => by
  have : meaning volumeItem.1 = .int (leInt (volumeItem.1.data.bytes.take 1)) := rfl
  rw [this] at h
  cases h)
example (junk0 : Nat → Byte) (junk : Nat → Nat → Byte) := C129_frame german_ascii.2.1 junk0 junk (realTelegram, none) [] hdrHeader [realItem] []
  real_reads (by simp [realItem]) .nil (by
    intro i hi it hit
    have : i = [realItem] := by simpa using hi
    subst this
    rw [List.mem_singleton.mp hit]
    exact real_written) (by decide) (by decide)
example (junk0 : Nat → Byte) (junk : Nat → Nat → Byte) := C129_variable german_ascii.2.1 junk0 junk hdrHeader [realItem]
  (fun it h => by rw [List.mem_singleton.mp h]; exact ⟨real_delivered, real_written⟩) (by decide)
example (junk0 : Nat → Byte) (junk : Nat → Nat → Byte) (x : FrameData) (hx : x.type = DATA_VARIABLE) (hr : x.var.records = [realItem.1]) :=
  C129_normalized_frame german_ascii.2.2 junk0 junk x hx (fun r h => by
    rw [hr] at h
    rw [List.mem_singleton.mp h]
    exact ⟨real_delivered, by decide, by decide +kernel⟩)
/-- The labels with a degree sign (C2h B0h): its bytes are no control characters of ISO 8859-1. -/
example : blanked germanLatin1 (mediumLookup 6) = mediumLookup 6 := by decide +kernel
/-- In a locale where B0h is one, the sign is damaged. -/
example : blanked ⟨cs! ",", fun b => isCntrl b || b == 0xB0⟩ (mediumLookup 6) ≠ mediumLookup 6 := by decide +kernel

end Mbus
