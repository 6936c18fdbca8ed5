import Verif.Lemmas.Units
import Verif.Lemmas.Digits
import Verif.Lemmas.Record
import Verif.Props.Record
/-
Properties C37, C38, C39, C64, C65: units, scales and labels.
-/
namespace Mbus
open Spec

/-! ### C37 -/

/-- C37: for every documented code (primary VIF, 0xFD code + 0x100, 0xFB code + 0x200) the normalised value is the value
times the documented factor, and the unit is the documented one.
Missing: code 0x279 (factor) and 0x208, 0x209, 0x230, 0x231 (unit), where the tables deviate (`C37_*_violation`). -/
theorem C37_scale_partial (code : Nat) (d : Rat × List Byte) (hd : docScale code = some d) (hc : code % 256 < 128)
    (hl : code < 768) (h : code ≠ 0x279) (x : Flt) :
    (vifUnitNormalize (code : Int) x).code = 0 ∧ (vifUnitNormalize (code : Int) x).value = x.mul (.lit d.1) ∧
    (code ∉ [0x208, 0x209, 0x230, 0x231] → (vifUnitNormalize (code : Int) x).unit = d.2) := by
  have hm : (((code : Int) % 4096).toNat &&& 0xF7F) = code := by
    have e : ((code : Int) % 4096).toNat = code := by omega
    rw [e]; exact mask_code ⟨code, hl⟩ hc
  obtain ⟨e, u, q, hr, he, hu⟩ := rowOf_doc ⟨code, hl⟩ d hd h
  simp only at hr
  rw [vifUnitNormalize_row, hm, hr]
  simp only
  exact ⟨trivial, by rw [he], hu⟩

/-- C37: the extension bit (0x80) does not matter. -/
theorem C37_extension_bit (b : Byte) (x : Flt) :
    vifUnitNormalize (b.toNat : Int) x = vifUnitNormalize ((b.toNat % 128 : Nat) : Int) x := by
  have h : ((b.toNat : Int) % 4096).toNat &&& 0xF7F = (((b.toNat % 128 : Nat) : Int) % 4096).toNat &&& 0xF7F := by
    have e1 : ((b.toNat : Int) % 4096).toNat = b.toNat := by have := b.toNat_lt; omega
    have e2 : (((b.toNat % 128 : Nat) : Int) % 4096).toNat = b.toNat % 128 := by omega
    rw [e1, e2]
    exact forall_byte (P := fun b => b.toNat &&& 0xF7F = b.toNat % 128 &&& 0xF7F) (by decide +kernel) b
  rw [vifUnitNormalize_row, vifUnitNormalize_row, h]

/-- C37: return code 0 exactly for the known codes; otherwise -1 with value 0.  For every `int` argument. -/
theorem C37_unknown (z : Int) (x : Flt) :
    (KnownCode ((z % 4096).toNat &&& 0xF7F) → (vifUnitNormalize z x).code = 0) ∧
    (¬ KnownCode ((z % 4096).toNat &&& 0xF7F) →
      (vifUnitNormalize z x).code = -1 ∧ (vifUnitNormalize z x).value = .lit 0) := by
  have hk := rowOf_known _ (mask_idem (z % 4096).toNat)
  rw [vifUnitNormalize_row]
  cases hr : rowOf ((z % 4096).toNat &&& 0xF7F) with
  | none =>
    rw [hr] at hk
    refine ⟨fun h => absurd (hk.2 h) (by simp), fun _ => ⟨rfl, rfl⟩⟩
  | some t =>
    rw [hr] at hk
    refine ⟨fun _ => rfl, fun h => absurd (hk.1 rfl) h⟩

/-- C37: no code matches two rows of the table. -/
theorem C37_unique (r r' : VifRow) (h : r ∈ vifTable) (h' : r' ∈ vifTable) (e : r.vif = r'.vif) : r = r' :=
  nodup_map_inj vifTable_nodup h h' e

/-- C37 is false of the code: 0xFB 0x79 is documented as 10^-2 W but scaled by 10^-3. -/
theorem C37_scale_violation : docScale 0x279 = some (1 / 100, cs! "W") ∧ (vifUnitNormalize 0x279 (.lit 1)).code = 0 ∧
    (vifUnitNormalize 0x279 (.lit 1)).value = .lit (1 / 1000) := by decide +kernel

/-- C37 is false of the code: the unit of 0xFB 0x08/0x09 (GJ) comes out as "Reserved", of 0x30/0x31 (GJ/h) as "J". -/
theorem C37_unit_violation :
    (docScale 0x208).map Prod.snd = some (cs! "J") ∧ (vifUnitNormalize 0x208 (.lit 1)).unit = cs! "Reserved" ∧
    (docScale 0x209).map Prod.snd = some (cs! "J") ∧ (vifUnitNormalize 0x209 (.lit 1)).unit = cs! "Reserved" ∧
    (docScale 0x230).map Prod.snd = some (cs! "J/h") ∧ (vifUnitNormalize 0x230 (.lit 1)).unit = cs! "J" ∧
    (docScale 0x231).map Prod.snd = some (cs! "J/h") ∧ (vifUnitNormalize 0x231 (.lit 1)).unit = cs! "J" := by decide +kernel

example : docScale 0x06 = some (1000, cs! "Wh") ∧ vifUnitNormalize 0x86 (.lit 5) = ⟨0, cs! "Wh", .lit 5000, cs! "Energy"⟩ := by decide +kernel
example : docScale 0x148 = some (1 / 10, cs! "V") ∧ (vifUnitNormalize 0x148 (.lit 5)).value = .lit (1 / 2) := by decide +kernel
example : docScale 0x16A = some (262974383 / 100, cs! "s") ∧ docScale 0x123 = none ∧ docScale 0x211 = some (1000, cs! "m^3") := by
  decide +kernel
example : ¬ KnownCode 0x7B ∧ KnownCode 0x257 := by decide

/-! ### C38 -/

/-- C38: for every unit argument outside the twelve codes of `fixedBad`, whenever the printed label is a physical unit
(documented by `fixedDoc`), label, documentation and normalised value agree.
Missing: the codes 0D, 0E (labels swapped), 15-1C (power not scaled), 2F (wrong factor), 30 (missing row), see
`C38_violation`. -/
theorem C38_agree_partial (u v : Int) (old : Flt) (d : Rat × List Byte) (h : (u % 64).toNat ∉ fixedBad)
    (hd : readLabel (fixedUnit u) = some d) :
    fixedDoc (u % 64).toNat = some d ∧ (fixedNormalize u v old).code = 0 ∧
    (fixedNormalize u v old).value = (Flt.lit (v : Rat)).mul (.lit d.1) ∧ (fixedNormalize u v old).unit = d.2 := by
  have h0 : u % 64 ≠ 0 := by
    intro e; unfold fixedUnit fixedUnitText at hd; rw [e] at hd; revert hd
    rw [show readLabel (snp 256 ((caseOf (Int.toNat 0) fixedUnitCases).getD (cs! "unknown"))) = none by decide +kernel]
    exact fun h => by cases h
  have h1 : u % 64 ≠ 1 := by
    intro e; unfold fixedUnit fixedUnitText at hd; rw [e] at hd; revert hd
    rw [show readLabel (snp 256 ((caseOf (Int.toNat 1) fixedUnitCases).getD (cs! "unknown"))) = none by decide +kernel]
    exact fun h => by cases h
  obtain ⟨hl, hr⟩ := fixed_label ⟨(u % 64).toNat, by omega⟩ (by simp only; omega) h
  simp only at hl hr
  have hd' : fixedDoc (u % 64).toNat = some d := by rw [← hl]; exact hd
  have hrow := hr d hd'
  rw [fixedNormalize_row u v old h0 h1]
  cases hx : fixRowOf (u % 64).toNat with
  | none => rw [hx] at hrow; cases hrow
  | some t =>
    obtain ⟨e, un, q⟩ := t
    rw [hx] at hrow
    injection hrow with hrow
    subst hrow
    exact ⟨hd', rfl, rfl, rfl⟩

/-- C38: the two date/time codes are refused with -2 and the value is left alone; both codes are labelled as such. -/
theorem C38_time (u v : Int) (old : Flt) (h : u % 64 = 0 ∨ u % 64 = 1) :
    (fixedNormalize u v old).code = -2 ∧ (fixedNormalize u v old).value = old ∧
    (fixedNormalize u v old).unit = fixedUnit u := by
  rcases h with h | h <;> unfold fixedNormalize fixedUnit fixedUnitText <;> rw [h] <;>
    exact ⟨rfl, rfl, rfl⟩

/-- C38 is false of the code: counter value 1 with unit code 0x15 is labelled "10 W" but normalised to 1 W, code 0x30
("10 ml/h") is refused, 0x2F ("ml/h") is ten times too large, 0x0D/0x0E carry each other's label. -/
theorem C38_violation :
    (readLabel (fixedUnit 0x15) = some (10, cs! "W") ∧ (fixedNormalize 0x15 1 (.lit 0)).value = .lit (1)) ∧
    (readLabel (fixedUnit 0x1C) = some (100000000, cs! "W") ∧ (fixedNormalize 0x1C 1 (.lit 0)).value = .lit (1)) ∧
    (readLabel (fixedUnit 0x30) = some (1 / 100000, cs! "m^3/h") ∧ (fixedNormalize 0x30 1 (.lit 0)).code = -1) ∧
    (readLabel (fixedUnit 0x2F) = some (1 / 1000000, cs! "m^3/h") ∧ (fixedNormalize 0x2F 1 (.lit 0)).value = .lit (1 / 100000)) ∧
    (readLabel (fixedUnit 0x0D) = some (1000000, cs! "J") ∧ (fixedNormalize 0x0D 1 (.lit 0)).value = .lit (100000) ∧
      fixedDoc 0x0D = some (100000, cs! "J")) ∧
    (readLabel (fixedUnit 0x0E) = some (100000, cs! "J") ∧ (fixedNormalize 0x0E 1 (.lit 0)).value = .lit (1000000)) := by
  decide +kernel

example : readLabel (fixedUnit (-24)) = some (1 / 10000, cs! "m^3") ∧ fixedNormalize (-24) 123 (.lit 0) = ⟨0, cs! "m^3", .lit (123 / 10000), cs! "Volume"⟩ := by
  decide +kernel

/-! ### C39 -/

/-- C39: first VIFE 0x70+n (with or without its own extension bit): times 10^(n-6). -/
theorem C39_multiplicative (r : Record) (x : Flt) (n : Nat) (hn : n < 8) (hv : ExtendedPrimary r)
    (hk : (plainVif r x).code = 0) (he : vife0 r % 128 = 0x70 + n) :
    vibUnitNormalize r x =
      .ok (some { plainVif r x with value := (plainVif r x).value.mul (.lit ((10 : Rat) ^ ((n : Int) - 6))) }) := by
  rw [vibUnitNormalize_ext r x hv.1 hv.2.2.2 hv.2.1 hv.2.2.1 hk, vifeCorrection_mul _ _ n hn he]; rfl

/-- C39: first VIFE 0x78+n: plus 10^(n-3). -/
theorem C39_additive (r : Record) (x : Flt) (n : Nat) (hn : n < 4) (hv : ExtendedPrimary r)
    (hk : (plainVif r x).code = 0) (he : vife0 r % 128 = 0x78 + n) :
    vibUnitNormalize r x =
      .ok (some { plainVif r x with value := (plainVif r x).value.add (.lit ((10 : Rat) ^ ((n : Int) - 3))) }) := by
  rw [vibUnitNormalize_ext r x hv.1 hv.2.2.2 hv.2.1 hv.2.2.1 hk, vifeCorrection_add _ _ n hn he]; rfl

/-- C39: first VIFE 0x7D: times 1000. -/
theorem C39_thousand (r : Record) (x : Flt) (hv : ExtendedPrimary r)
    (hk : (plainVif r x).code = 0) (he : vife0 r % 128 = 0x7D) :
    vibUnitNormalize r x = .ok (some { plainVif r x with value := (plainVif r x).value.mul (.lit 1000) }) := by
  rw [vibUnitNormalize_ext r x hv.1 hv.2.2.2 hv.2.1 hv.2.2.1 hk, vifeCorrection_thousand _ _ he]; rfl

/-- C39: any other first VIFE leaves the plain normalisation unchanged. -/
theorem C39_other (r : Record) (x : Flt) (hv : ExtendedPrimary r) (hk : (plainVif r x).code = 0)
    (he : vife0 r % 128 < 0x70 ∨ vife0 r % 128 = 0x7C ∨ 0x7E ≤ vife0 r % 128) :
    vibUnitNormalize r x = .ok (some (plainVif r x)) := by
  rw [vibUnitNormalize_ext r x hv.1 hv.2.2.2 hv.2.1 hv.2.2.1 hk, vifeCorrection_other _ _ he]; rfl

/-- C39: without extension bit (and not the custom VIF 0x7C) no VIFE has any influence. -/
theorem C39_no_extension (r : Record) (x : Flt) (hv : r.vif.toNat < 0x80) (h : r.vif ≠ 0x7C) :
    vibUnitNormalize r x = .ok (some (plainVif r x)) := vibUnitNormalize_plain r x hv h

/-- C39: the two unassigned primary VIFs (0x7B and 0x7D without extension bit) are refused with -1 and value 0. -/
theorem C39_unknown (r : Record) (x : Flt) (h : r.vif = 0x7B ∨ r.vif = 0x7D) :
    ∃ n, vibUnitNormalize r x = .ok (some n) ∧ n.code = -1 ∧ n.value = .lit 0 := by
  have hv : r.vif.toNat < 0x80 := by rcases h with h | h <;> rw [h] <;> decide
  have hc : r.vif ≠ 0x7C := by rcases h with h | h <;> rw [h] <;> decide
  have hu := (C37_unknown ((r.vif.toNat % 128 : Nat) : Int) x).2 (by rcases h with h | h <;> rw [h] <;> decide)
  exact ⟨plainVif r x, vibUnitNormalize_plain r x hv hc, hu⟩

/-- C39: 0xFD / 0xFB without VIFE is refused and the outputs are untouched. -/
theorem C39_missing (r : Record) (x : Flt) (hv : r.vif = 0xFD ∨ r.vif = 0xFB) (hn : r.nvife = 0) :
    vibUnitNormalize r x = .ok none := by
  unfold vibUnitNormalize
  rcases hv with hv | hv <;> simp [hv, hn, Buf.rd_lt, show (0 : Nat) < 10 by decide]

/-- C39: 0xFD / 0xFB with a VIFE select the extension code of that VIFE, and no correction is applied. -/
theorem C39_extension (r : Record) (x : Flt) (hn : r.nvife ≠ 0) :
    (r.vif = 0xFD → vibUnitNormalize r x = .ok (some (vifUnitNormalize ((vife0 r % 128 + 0x100 : Nat) : Int) x))) ∧
    (r.vif = 0xFB → vibUnitNormalize r x = .ok (some (vifUnitNormalize ((vife0 r % 128 + 0x200 : Nat) : Int) x))) :=
  vibUnitNormalize_fdfb r x hn

/-- C39: a custom VIF keeps the value (up to the correction of the first VIFE for 0xFC) and names itself as quantity. -/
theorem C39_custom (r : Record) (x : Flt) (c : List Byte) (hc : cstr r.customVif.bytes = .ok c) :
    (r.vif = 0x7C → vibUnitNormalize r x = .ok (some ⟨0, cs! "-", x, c⟩)) ∧
    (r.vif = 0xFC → vife0 r % 128 < 0x70 → vibUnitNormalize r x = .ok (some ⟨0, cs! "-", x, c⟩)) ∧
    (∀ n < 8, r.vif = 0xFC → vife0 r % 128 = 0x70 + n →
      vibUnitNormalize r x = .ok (some ⟨0, cs! "-", x.mul (.lit ((10 : Rat) ^ ((n : Int) - 6))), c⟩)) := by
  refine ⟨fun h => ?_, fun h he => ?_, fun n hn h he => ?_⟩
  · rw [vibUnitNormalize_custom r x c hc (.inl h)]; simp [h]
  · rw [vibUnitNormalize_custom r x c hc (.inr h), vifeCorrection_other _ _ (.inl he)]; simp
  · rw [vibUnitNormalize_custom r x c hc (.inr h), vifeCorrection_mul _ _ n hn he]; simp [h]

/-- a delivered record: energy 10 Wh, first VIFE 0x74 -/
def exRec (vif vife : Byte) : Record :=
  { Record.new with
    dif := 0x01
    vif := vif
    vife := ⟨[vife, 0, 0, 0, 0, 0, 0, 0, 0, 0], rfl⟩
    nvife := 1 }

-- 70 * 0.01 is 0.70000000000000006661... in `double` arithmetic
example : ExtendedPrimary (exRec 0x84 0x74) ∧ (plainVif (exRec 0x84 0x74) (.lit 7)).code = 0 ∧ vife0 (exRec 0x84 0x74) % 128 = 0x70 + 4 ∧
    vibUnitNormalize (exRec 0x84 0x74) (.lit 7) = .ok (some ⟨0, cs! "Wh", .fin false (6305039478318695 / 9007199254740992), cs! "Energy"⟩) := by
  refine ⟨by unfold ExtendedPrimary; decide, ?_⟩; decide +kernel
example : vibUnitNormalize (exRec 0x84 0xF9) (.lit 7) = .ok (some ⟨0, cs! "Wh", .lit (70 + 1 / 100), cs! "Energy"⟩) := by decide +kernel
example : vibUnitNormalize (exRec 0xFD 0x49) (.lit 7) = .ok (some ⟨0, cs! "V", .lit 7, cs! "Voltage"⟩) := by decide +kernel
example : (exRec 0x7B 0).vif = 0x7B := rfl

/-! ### C65 -/

/-- C65: for every primary VIF with a decimal scale, with or without extension bit, the printed label is the quantity with
a prefix and unit, and the normalised value is the value times exactly the power of ten that prefix means. -/
theorem C65_prefix (v : Byte) (t : List Byte × List Byte) (ht : labelFrame (v.toNat % 128) = some t) (x : Flt) :
    ∃ p ∈ prefixes, vifUnitLookup v = t.1 ++ p.1 ++ t.2 ∧
      (vifUnitNormalize (v.toNat : Int) x).code = 0 ∧
      (vifUnitNormalize (v.toNat : Int) x).value = x.mul (.lit ((10 : Rat) ^ p.2)) := by
  obtain ⟨p, hp, hl, hr⟩ := label_row ⟨v.toNat, v.toNat_lt⟩ t ht
  simp only [UInt8.ofNat_toNat] at hl hr
  refine ⟨p, hp, hl, ?_⟩
  have hm : (((v.toNat % 128 : Nat) : Int) % 4096).toNat &&& 0xF7F = v.toNat % 128 := by
    have e : (((v.toNat % 128 : Nat) : Int) % 4096).toNat = v.toNat % 128 := by omega
    rw [e]; exact mask_code ⟨v.toNat % 128, by omega⟩ (by simp only; omega)
  rw [C37_extension_bit, vifUnitNormalize_row, hm]
  cases hx : rowOf (v.toNat % 128) with
  | none => rw [hx] at hr; cases hr
  | some q =>
    rw [hx] at hr
    injection hr with hr
    exact ⟨rfl, by simp only [← hr]⟩

/-- C65: the same for the voltage and current codes of the 0xFD extension. -/
theorem C65_prefix_fd (v : Byte) (h1 : 0x40 ≤ v.toNat % 128) (h2 : v.toNat % 128 ≤ 0x5F) (x : Flt) :
    ∃ p ∈ prefixes, fdText v = p.1 ++ (if v.toNat % 128 ≤ 0x4F then cs! " V" else cs! " A") ∧
      (vifUnitNormalize ((v.toNat % 128 + 0x100 : Nat) : Int) x).value = x.mul (.lit ((10 : Rat) ^ p.2)) := by
  obtain ⟨p, hp, hl, hr⟩ := label_fd ⟨v.toNat, v.toNat_lt⟩ h1 h2
  simp only [UInt8.ofNat_toNat] at hl hr
  refine ⟨p, hp, hl, ?_⟩
  have hm : (((v.toNat % 128 + 0x100 : Nat) : Int) % 4096).toNat &&& 0xF7F = v.toNat % 128 + 0x100 := by
    have e : (((v.toNat % 128 + 0x100 : Nat) : Int) % 4096).toNat = v.toNat % 128 + 0x100 := by omega
    rw [e]; exact mask_code ⟨v.toNat % 128 + 0x100, by omega⟩ (by simp only; omega)
  rw [vifUnitNormalize_row, hm]
  cases hx : rowOf (v.toNat % 128 + 0x100) with
  | none => rw [hx] at hr; cases hr
  | some q =>
    rw [hx] at hr
    injection hr with hr
    injection hr with hr _
    simp only [← hr]

/-- C65: different prefixes mean different powers, so the label determines the scale. -/
theorem C65_prefix_unambiguous : ∀ p ∈ prefixes, ∀ q ∈ prefixes, (p.1 = q.1 ↔ p.2 = q.2) := by decide +kernel

example : labelFrame (0x2E : Nat) = some (cs! "Power (", cs! "W)") ∧ vifUnitLookup 0x2E = cs! "Power (kW)" := by decide +kernel

/-! ### C64 -/

/-- C64: the labels selected by fixed-format data fit. -/
theorem C64_fixed (x : FixedData) (u status : Int) :
    fixedMedium x = fixedMediumText x ∧ fixedUnit u = fixedUnitText u ∧ fixedFunction status = fixedFunctionText status := by
  refine ⟨snp_eq (caseOf_lt _ _ _ _ (by decide +kernel) (by decide +kernel)),
    snp_eq (caseOf_lt _ _ _ _ (by decide +kernel) (by decide +kernel)), snp_eq ?_⟩
  unfold fixedFunctionText; split <;> decide

/-- C64: medium, error and function labels fit, for every argument. -/
theorem C64_medium_error (m : Byte) (e : Int) (r : Record) :
    mediumLookup m = mediumText m ∧ errorLookup e = errorText e ∧ recordFunction r = recordFunctionText r := by
  refine ⟨snp_eq (caseOf_lt _ _ _ _ (by decide +kernel) (by simp [fmtHex2L])), snp_eq ?_, snp_eq ?_⟩
  · have h8 : (cs! "Unknown error (0x" ++ fmtHexInt e ++ cs! ")").length < 256 := by
      have := fmtHexInt_length e
      simp only [List.length_append, List.length_cons, List.length_nil]; omega
    unfold errorText
    split
    · exact h8
    · exact caseOf_lt _ _ _ _ (by decide +kernel) h8
  · unfold recordFunctionText
    simp only
    repeat' split
    all_goals decide

/-- C64: the prefix text is short for every `int` exponent. -/
theorem C64_prefix (e : Int) (h : isInt32 e = true) : (unitPrefix e).length < 256 := unitPrefix_length e h

/-- C64: VIF and VIFE labels fit, for every byte. -/
theorem C64_vif (v : Byte) : vifUnitLookup v = vifUnitText v ∧ snp 256 (fbText v) = fbText v ∧ snp 256 (fdText v) = fdText v :=
  ⟨snp_eq (vifText_lt v).1, snp_eq (vifText_lt v).2.1, snp_eq (vifText_lt v).2.2⟩

/-- C64: the label of a whole VIB fits its 256-byte buffer, whatever the custom VIF text. -/
theorem C64_vib (r : Record) (t : List Byte) (h : vibUnitText r = .ok t) : vibUnitLookup r = .ok t := by
  unfold vibUnitLookup
  rw [h, ok_bind, snp_eq (vibUnitText_lt r t h).1]

/-- C64: the product name copied with `strcpy` never overflows its buffer, for every header. -/
theorem C64_product (h : VarHeader) : ∃ t, productName h = .ok t ∧ t.length < 128 := productName_ok h

/-- C64: the record unit (128-byte buffer) is not truncated.
Missing: VIF 0xFC (custom unit with a multiplier), where it can be (`C64_record_unit_violation`). -/
theorem C64_record_unit_partial (r : Record) (t : List Byte) (h : vibUnitText r = .ok t) (hv : r.vif ≠ 0xFC) :
    recordUnit r = .ok t := by
  unfold recordUnit
  rw [C64_vib r t h, ok_bind, snp_eq ((vibUnitText_lt r t h).2 hv)]

/-- A telegram with a 127-character custom VIF and the multiplier 10^-6. -/
def longUnit : Frame := rsp 0x72 (hdr ++ [0x01, 0xFC, 127] ++ List.replicate 127 0x61 ++ [0x70, 5])

set_option maxRecDepth 10000 in
/-- C64 is false of the code: a telegram whose record's 130-character label comes out cut to 127 characters. -/
theorem C64_record_unit_violation : ∃ v' r t, variableParse longUnit VarData.zero = .ok (0, v') ∧ v'.records = [r] ∧
    vibUnitLookup r = .ok t ∧ t.length = 130 ∧ recordUnit r = .ok (t.take 127) := by
  refine ⟨_, _, _, rfl, rfl, rfl, ?_, ?_⟩ <;> decide +kernel

example : productName { VarHeader.zero with
    manufacturer := ⟨[0x65, 0x32], rfl⟩
    version := 0x02 } = .ok [] ∧
  productName { VarHeader.zero with
    manufacturer := ⟨[0xA7, 0x32], rfl⟩
    version := 0x04 } = .ok (cs! "Landis & Gyr Ultraheat UH50") := by decide +kernel
example : vibUnitText (exRec 0xFD 0x17) = .ok (cs! "Error flags") ∧ recordUnit (exRec 0x06 0) = .ok (cs! "Energy (kWh)") := by decide +kernel
example : errorLookup (-1) = cs! "Unknown error (0xFFFFFFFF)" ∧ mediumLookup 0x7F = cs! "Unknown medium (0x7f)" := by decide +kernel

/-! Direct instances of the theorems above. -/

example := C37_scale_partial 0x06 (1000, cs! "Wh") (by decide +kernel) (by decide) (by decide) (by decide) (.lit 5)
example (r r' : VifRow) (h : vifTable[3]? = some r) (h' : vifTable[4]? = some r') : r.vif ≠ r'.vif := by
  intro e
  have := C37_unique r r' (List.mem_of_getElem? h) (List.mem_of_getElem? h') e
  rw [← this] at h'
  exact absurd (h.trans h'.symm) (by decide +kernel)
example := C38_agree_partial (-24) 123 (.lit 0) (1 / 10000, cs! "m^3") (by decide +kernel) (by decide +kernel)
example := C38_time 65 123 (.lit 9) (by decide)
/-- Energy with the VIFE "times 10^-2" -/
example := C39_multiplicative (exRec 0x84 0x74) (.lit 7) 4 (by decide) (by unfold ExtendedPrimary; decide) (by decide +kernel) (by decide)
/-- Energy with the VIFE "plus 10^-2", followed by another VIFE -/
example := C39_additive (exRec 0x84 0xF9) (.lit 7) 1 (by decide) (by unfold ExtendedPrimary; decide) (by decide +kernel) (by decide)
example := C39_thousand (exRec 0x84 0x7D) (.lit 7) (by unfold ExtendedPrimary; decide) (by decide +kernel) (by decide)
example := C39_other (exRec 0x84 0x7C) (.lit 7) (by unfold ExtendedPrimary; decide) (by decide +kernel) (by decide)
example := C39_no_extension (exRec 0x06 0) (.lit 7) (by decide) (by decide)
example := C39_unknown (exRec 0x7B 0) (.lit 7) (by decide)
example := C39_missing { exRec 0xFD 0 with nvife := 0 } (.lit 7) (by decide) rfl
example := (C39_extension (exRec 0xFD 0x49) (.lit 7) (by decide)).1 rfl
example := C65_prefix 0x2E (cs! "Power (", cs! "W)") (by decide +kernel) (.lit 5)
example := C65_prefix_fd 0xC8 (by decide) (by decide) (.lit 5)
example := C64_prefix (-2147483648) (by decide)
example : vibUnitLookup (exRec 0xFD 0x17) = .ok (cs! "Error flags") := C64_vib _ _ (by decide +kernel)
example : recordUnit (exRec 0xFD 0x17) = .ok (cs! "Error flags") := C64_record_unit_partial _ _ (by decide +kernel) (by decide)

end Mbus
