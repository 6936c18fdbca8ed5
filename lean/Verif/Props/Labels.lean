import Verif.Spec.Labels
import Verif.Lemmas.Units
/- Property theorems C82: label tables. -/
namespace Mbus
open Spec

/-- C82: the medium of a fixed-length telegram is chosen by the top bits of the two counter type bytes, second byte first. -/
theorem C82_fixed_medium (x : FixedData) :
    some (fixedMedium x) = fixedMedia[4 * (x.cnt2Type.toNat / 64) + x.cnt1Type.toNat / 64]? := by
  obtain ⟨c1, c2, h1, h2⟩ : ∃ c1 c2, x.cnt1Type = c1 ∧ x.cnt2Type = c2 := ⟨_, _, rfl, rfl⟩
  unfold fixedMedium fixedMediumText
  rw [h1, h2]
  have key : ∀ c1 c2 : Byte, (((c1 &&& 0xC0) >>> 6) ||| ((c2 &&& 0xC0) >>> 4)).toNat = 4 * (c2.toNat / 64) + c1.toNat / 64 := by
    intro c1 c2
    have e1 : ∀ c : Byte, (c &&& 0xC0) >>> 6 = UInt8.ofNat (c.toNat / 64) := forall_byte (by decide +kernel)
    have e2 : ∀ c : Byte, (c &&& 0xC0) >>> 4 = UInt8.ofNat (4 * (c.toNat / 64)) := forall_byte (by decide +kernel)
    rw [e1, e2]
    have l1 := c1.toNat_lt
    have l2 := c2.toNat_lt
    have : ∀ a b : Fin 4, (UInt8.ofNat a ||| UInt8.ofNat (4 * b)).toNat = 4 * b + a := by decide +kernel
    exact this ⟨c1.toNat / 64, by omega⟩ ⟨c2.toNat / 64, by omega⟩
  rw [key]
  have l1 := c1.toNat_lt
  have l2 := c2.toNat_lt
  have fin : ∀ k : Fin 16, some (snp 256 ((caseOf k.val fixedMediumCases).getD (cs! "unknown"))) = fixedMedia[k.val]? := by decide +kernel
  exact fin ⟨4 * (c2.toNat / 64) + c1.toNat / 64, by omega⟩

/-- C82 (partial: not for the codes 0x0D and 0x0E): the unit label of a fixed-length counter is the documented one. -/
theorem C82_fixed_unit_partial (u : Int) (h : u % 64 ≠ 0x0D ∧ u % 64 ≠ 0x0E) : fixedUnit u = fixedUnitLabel (u % 64).toNat := by
  unfold fixedUnit fixedUnitText
  have fin : ∀ k : Fin 64, k.val ≠ 13 → k.val ≠ 14 →
      snp 256 ((caseOf k.val fixedUnitCases).getD (cs! "unknown")) = fixedUnitLabel k.val := by decide +kernel
  exact fin ⟨(u % 64).toNat, by omega⟩ (by simp only; omega) (by simp only; omega)

example := C82_fixed_unit_partial 0x2A (by decide)

/-- C82 is false for the codes 0x0D (documented: kJ * 100) and 0x0E (documented: MJ), whose labels are exchanged. -/
theorem C82_fixed_unit_violation : fixedUnitLabel 0x0D = cs! "100 kJ" ∧ fixedUnit 0x0D = cs! "MJ" ∧
    fixedUnitLabel 0x0E = cs! "MJ" ∧ fixedUnit 0x0E = cs! "100 kJ" := by decide +kernel

/-- C82: every medium byte gets its assigned name, "Reserved", or a text that shows the code. -/
theorem C82_medium (m : Byte) :
    mediumLookup m = match mediumName m.toNat with
      | some n => n
      | none => if ReservedMedium m.toNat then cs! "Reserved" else cs! "Unknown medium (0x" ++ fmtHex2L m ++ cs! ")" := by
  revert m; exact forall_byte (by decide +kernel)

/-- Reads a medium label back. -/
def mediumCode (t : List Byte) : Byte :=
  if t.take 18 = cs! "Unknown medium (0x" then
    let v (c : Byte) := if c < 58 then c - 48 else c - 87
    16 * v (t.getD 18 0) + v (t.getD 19 0)
  else UInt8.ofNat (((List.range 64).find? fun k => mediumLookup (UInt8.ofNat k) == t).getD 0)

/-- C82: two media that have names are told apart by them, and so are codes shown as unknown. -/
theorem C82_medium_distinct (a b : Byte) (h : mediumLookup a = mediumLookup b) :
    a = b ∨ (mediumLookup a = cs! "Reserved" ∧ ReservedMedium a.toNat ∧ ReservedMedium b.toNat) := by
  have key : ∀ a : Byte, (mediumLookup a = cs! "Reserved" ∧ ReservedMedium a.toNat) ∨ mediumCode (mediumLookup a) = a := 
    forall_byte (by decide +kernel)
  rcases key a with h1 | h1
  · rcases key b with h2 | h2
    · exact .inr ⟨h1.1, h1.2, h2.2⟩
    · rw [← h, h1.1] at h2
      have e : mediumCode (cs! "Reserved") = 0x22 := by decide +kernel
      rw [e] at h2
      subst h2
      exact .inr ⟨h1.1, h1.2, by decide⟩
  · rcases key b with h2 | h2
    · rw [h, h2.1] at h1
      have e : mediumCode (cs! "Reserved") = 0x22 := by decide +kernel
      rw [e] at h1
      subst h1
      exact .inr ⟨h.trans h2.1, by decide, h2.2⟩
    · exact .inl (by rw [← h1, ← h2, h])

/-- two reserved codes -/
example := C82_medium_distinct 0x22 0x3F (by decide)

/-- C82: the error label is the one of the application error table; every other number is shown in hexadecimal. -/
theorem C82_error (e : Int) :
    errorLookup e = if 0 ≤ e ∧ e < 10 then errors.getD e.toNat [] else snp 256 (cs! "Unknown error (0x" ++ fmtHexInt e ++ cs! ")") := by
  unfold errorLookup errorText
  by_cases h : 0 ≤ e ∧ e < 10
  · rw [if_pos h, if_neg (by omega)]
    have fin : ∀ k : Fin 10, caseOf k.val errorCases = some (errors.getD k.val []) ∧ snp 256 (errors.getD k.val []) = errors.getD k.val [] := by
      decide +kernel
    have := fin ⟨e.toNat, by omega⟩
    simp only at this
    rw [this.1, Option.getD_some, this.2]
  · rw [if_neg h]
    split
    · rfl
    · rename_i hn
      have : caseOf e.toNat errorCases = none := by
        unfold caseOf errorCases
        have hk : ∀ k : Nat, k < 10 → (e.toNat == k) = false := fun k hk => by
          rw [beq_eq_false_iff_ne]; omega
        simp only [List.lookup_cons, List.lookup_nil, hk _ (by decide : 0 < 10), hk _ (by decide : 1 < 10), hk _ (by decide : 2 < 10),
          hk _ (by decide : 3 < 10), hk _ (by decide : 4 < 10), hk _ (by decide : 5 < 10), hk _ (by decide : 6 < 10),
          hk _ (by decide : 7 < 10), hk _ (by decide : 8 < 10), hk _ (by decide : 9 < 10)]
      rw [this]; rfl

/-- C82: the ten error codes have ten different labels. -/
theorem C82_error_distinct (a b : Int) (ha : 0 ≤ a ∧ a < 10) (hb : 0 ≤ b ∧ b < 10) (h : errorLookup a = errorLookup b) : a = b := by
  rw [C82_error, C82_error, if_pos ha, if_pos hb] at h
  have fin : ∀ i j : Fin 10, errors.getD i.val [] = errors.getD j.val [] → i = j := by decide +kernel
  have := fin ⟨a.toNat, by omega⟩ ⟨b.toNat, by omega⟩ h
  simp only [Fin.mk.injEq] at this
  omega

example := C82_error_distinct 9 9 (by decide) (by decide) rfl

/-- C82: the function of a record is given by bits 5 and 4 of its DIF, the function of a fixed counter by bit 6 of the status. -/
theorem C82_function (r : Record) (status : Int) :
    some (recordFunction r) = functions[r.dif.toNat / 16 % 4]? ∧
    fixedFunction status = (if status / 64 % 2 = 1 then cs! "Stored value" else cs! "Actual value") := by
  constructor
  · have key : ∀ d : Byte, ∀ r : Record, r.dif = d → some (recordFunction r) = functions[d.toNat / 16 % 4]? := by
      intro d r hr
      unfold recordFunction recordFunctionText
      rw [hr]
      revert d; exact fun d _ => (forall_byte (P := fun d : Byte => some (snp 128 (
        let k := d.toNat &&& 0x30
        if k = 0x00 then cs! "Instantaneous value" else if k = 0x10 then cs! "Maximum value"
        else if k = 0x20 then cs! "Minimum value" else if k = 0x30 then cs! "Value during error state" else cs! "unknown")) =
          functions[d.toNat / 16 % 4]?) (by decide +kernel)) d
    exact key r.dif r rfl
  · unfold fixedFunction fixedFunctionText
    have fin : ∀ k : Fin 256, snp 128 (if k.val &&& 0x40 = 0x40 then cs! "Stored value" else cs! "Actual value") =
        (if k.val / 64 % 2 = 1 then cs! "Stored value" else cs! "Actual value") := by decide +kernel
    have := fin ⟨(status % 256).toNat, by omega⟩
    rw [this]
    simp only
    congr 1
    apply propext
    omega

example : fixedMedium { FixedData.zero with cnt1Type := 0xC5, cnt2Type := 0x45 } = cs! "Water" := by decide +kernel
example : fixedUnit 0x27 = cs! "10 ml" ∧ fixedUnitLabel 0x27 = cs! "10 ml" := by decide +kernel
example : mediumLookup 0x16 = cs! "Cold water" ∧ mediumName 0x16 = some (cs! "Cold water") := by decide +kernel
example : mediumLookup 0x7F = cs! "Unknown medium (0x7f)" ∧ errorLookup 8 = cs! "Application busy" := by decide +kernel

end Mbus
