import Verif.Model.Unit
import Verif.Spec.Units
import Verif.Lemmas.Record
import Verif.Lemmas.Digits
/- Facts about the unit tables (kernel evaluation over the finite code space) used by Props/Units.lean. -/
namespace Mbus
open Spec

/-- the row a code selects, independent of the value -/
def rowOf (c : Nat) : Option (Rat × List Byte × List Byte) :=
  (vifTable.find? (fun r => r.vif == c)).map (fun r => (r.exponent, r.unit, r.quantity))

theorem vifUnitNormalize_row (z : Int) (x : Flt) : vifUnitNormalize z x =
    match rowOf ((z % 4096).toNat &&& 0xF7F) with
    | some (e, u, q) => ⟨0, u, x.mul (.lit e), q⟩
    | none => ⟨-1, cs! "Unknown (VIF=0x%.02X)", .lit 0, cs! "Unknown"⟩ := by
  unfold vifUnitNormalize rowOf
  cases h : vifTable.find? (fun r => r.vif == (z % 4096).toNat &&& 0xF7F) <;> simp [h]

set_option maxRecDepth 100000 in
theorem rowOf_doc : ∀ c : Fin 768, ∀ d, docScale c.val = some d →
    c.val ≠ 0x279 → ∃ e u q, rowOf c.val = some (e, u, q) ∧ e = d.1 ∧
      (c.val ∉ [0x208, 0x209, 0x230, 0x231] → u = d.2) := by
  have h : ∀ c : Fin 768, (match docScale c.val with
     | none => true
     | some d => c.val == 0x279 || (match rowOf c.val with
        | none => false
        | some (e, u, _) => e == d.1 && (decide (c.val ∈ [0x208, 0x209, 0x230, 0x231]) || u == d.2))) = true := by
    decide +kernel
  intro c d hd hc
  have := h c
  rw [hd] at this
  cases hr : rowOf c.val with
  | none => simp [hr, hc] at this
  | some t =>
    obtain ⟨e, u, q⟩ := t
    rw [hr] at this
    clear h
    simp only [Bool.or_eq_true, beq_iff_eq, hc, false_or, Bool.and_eq_true, decide_eq_true_eq] at this
    exact ⟨e, u, q, rfl, this.1, fun hn => this.2.resolve_left hn⟩

set_option maxRecDepth 100000 in
theorem table_known : ∀ r ∈ vifTable, r.vif &&& 0xF7F = r.vif → KnownCode r.vif := by decide +kernel

set_option maxRecDepth 100000 in
theorem known_table : ∀ c : Fin 640, KnownCode c.val → (vifTable.any (fun r => r.vif == c.val)) = true := by
  decide +kernel

theorem rowOf_known (c : Nat) (hc : c &&& 0xF7F = c) : (rowOf c).isSome = true ↔ KnownCode c := by
  unfold rowOf
  rw [Option.isSome_map, List.find?_isSome]
  constructor
  · rintro ⟨r, hr, he⟩
    have he : r.vif = c := by simpa using he
    subst he
    exact table_known r hr hc
  · intro hk
    have := known_table ⟨c, by unfold KnownCode at hk; omega⟩ hk
    simpa using this

set_option maxRecDepth 100000 in
theorem vifTable_nodup : (vifTable.map VifRow.vif).Nodup := by decide +kernel

theorem mask_lt (n : Nat) : n &&& 0xF7F < 4096 := by
  have := @Nat.and_le_right n 0xF7F; omega

theorem mask_idem (n : Nat) : (n &&& 0xF7F) &&& 0xF7F = n &&& 0xF7F := by
  rw [Nat.and_assoc, Nat.and_self]

set_option maxRecDepth 100000 in
theorem mask_code : ∀ n : Fin 768, n.val % 256 < 128 → n.val &&& 0xF7F = n.val := by decide +kernel

/-- the fixed-format row of a code -/
def fixRowOf (c : Nat) : Option (Rat × List Byte × List Byte) :=
  (fixedTable.find? (fun r => r.vif == c)).map (fun r => (r.exponent, r.unit, r.quantity))

theorem fixedNormalize_row (u v : Int) (old : Flt) (h0 : u % 64 ≠ 0) (h1 : u % 64 ≠ 1) : fixedNormalize u v old =
    match fixRowOf (u % 64).toNat with
    | some (e, un, q) => ⟨0, un, (Flt.lit (v : Rat)).mul (.lit e), q⟩
    | none => ⟨-1, cs! "Unknown", .lit 0, cs! "Unknown"⟩ := by
  have a0 : ¬ (u % 64).toNat = 0 := by omega
  have a1 : ¬ (u % 64).toNat = 1 := by omega
  unfold fixedNormalize fixRowOf
  simp only [a0, a1, if_false]
  cases h : fixedTable.find? (fun r => r.vif == (u % 64).toNat) <;> simp

set_option maxRecDepth 100000 in
theorem fixed_label : ∀ c : Fin 64, 2 ≤ c.val → c.val ∉ fixedBad →
    readLabel (snp 256 ((caseOf c.val fixedUnitCases).getD (cs! "unknown"))) = fixedDoc c.val ∧
    ∀ d, fixedDoc c.val = some d → (fixRowOf c.val).map (fun r => (r.1, r.2.1)) = some d := by
  have h : ∀ c : Fin 64, 2 ≤ c.val → c.val ∉ fixedBad →
    readLabel (snp 256 ((caseOf c.val fixedUnitCases).getD (cs! "unknown"))) = fixedDoc c.val ∧
    (fixedDoc c.val = none ∨ (fixRowOf c.val).map (fun r => (r.1, r.2.1)) = fixedDoc c.val) := by decide +kernel
  intro c h2 hb
  obtain ⟨a, b⟩ := h c h2 hb
  refine ⟨a, fun d hd => ?_⟩
  rcases b with b | b
  · rw [b] at hd; cases hd
  · rw [b, hd]

set_option maxRecDepth 100000 in
/-- every decimal primary VIF: label = frame around the prefix of the exponent, and the table factor is that power -/
theorem label_row : ∀ v : Fin 256, ∀ t, labelFrame (v.val % 128) = some t →
    ∃ p ∈ prefixes, vifUnitLookup (UInt8.ofNat v.val) = t.1 ++ p.1 ++ t.2 ∧
      (rowOf (v.val % 128)).map (fun r => r.1) = some ((10 : Rat) ^ p.2) := by
  have h : ∀ v : Fin 256, (match labelFrame (v.val % 128) with
     | none => true
     | some t => prefixes.any (fun p => vifUnitLookup (UInt8.ofNat v.val) == t.1 ++ p.1 ++ t.2 &&
         (rowOf (v.val % 128)).map (fun r => r.1) == some ((10 : Rat) ^ p.2))) = true := by decide +kernel
  intro v t ht
  have := h v
  rw [ht] at this
  simp only [List.any_eq_true, Bool.and_eq_true, beq_iff_eq] at this
  exact this

set_option maxRecDepth 100000 in
theorem label_fd : ∀ v : Fin 256, 0x40 ≤ v.val % 128 → v.val % 128 ≤ 0x5F →
    ∃ p ∈ prefixes, fdText (UInt8.ofNat v.val) = p.1 ++ (if v.val % 128 ≤ 0x4F then cs! " V" else cs! " A") ∧
      (rowOf (v.val % 128 + 0x100)).map (fun r => (r.1, r.2.1)) =
        some ((10 : Rat) ^ p.2, if v.val % 128 ≤ 0x4F then cs! "V" else cs! "A") := by
  decide +kernel

theorem nodup_map_inj {α β : Type} {f : α → β} {l : List α} (hn : (l.map f).Nodup) {a b : α} (ha : a ∈ l) (hb : b ∈ l)
    (e : f a = f b) : a = b := by
  induction l with
  | nil => cases ha
  | cons c l ih =>
    rw [List.map_cons, List.nodup_cons] at hn
    rcases List.mem_cons.1 ha with rfl | ha <;> rcases List.mem_cons.1 hb with rfl | hb
    · rfl
    · exact absurd (List.mem_map.2 ⟨b, hb, e.symm⟩) hn.1
    · exact absurd (List.mem_map.2 ⟨a, ‹a ∈ l›, e⟩) hn.1
    · exact ih hn.2 ha hb

theorem and7F (b : Byte) : b.toNat &&& 0x7F = b.toNat % 128 :=
  forall_byte (P := fun b => b.toNat &&& 0x7F = b.toNat % 128) (by decide +kernel) b
theorem and80 (b : Byte) : b.toNat &&& 0x80 ≠ 0 ↔ 0x80 ≤ b.toNat :=
  forall_byte (P := fun b => b.toNat &&& 0x80 ≠ 0 ↔ 0x80 ≤ b.toNat) (by decide +kernel) b

theorem vifeCorrection_mul (b : Byte) (x : Flt) (n : Nat) (hn : n < 8) (he : b.toNat % 128 = 0x70 + n) :
    vifeCorrection b x = x.mul (.lit ((10 : Rat) ^ ((n : Int) - 6))) := by
  have h : b.toNat &&& 0x07 = n := by
    have := forall_byte (P := fun b => b.toNat &&& 0x07 = b.toNat % 128 % 8) (by decide +kernel) b
    omega
  unfold vifeCorrection
  rw [and7F, h, if_pos (by omega)]

theorem vifeCorrection_add (b : Byte) (x : Flt) (n : Nat) (hn : n < 4) (he : b.toNat % 128 = 0x78 + n) :
    vifeCorrection b x = x.add (.lit ((10 : Rat) ^ ((n : Int) - 3))) := by
  have h : b.toNat &&& 0x03 = n := by
    have := forall_byte (P := fun b => b.toNat &&& 0x03 = b.toNat % 128 % 4) (by decide +kernel) b
    omega
  unfold vifeCorrection
  rw [and7F, h, if_neg (by omega), if_pos (by omega)]

theorem vifeCorrection_thousand (b : Byte) (x : Flt) (he : b.toNat % 128 = 0x7D) : vifeCorrection b x = x.mul (.lit 1000) := by
  unfold vifeCorrection
  rw [and7F, if_neg (by omega), if_neg (by omega), if_pos he]

theorem vifeCorrection_other (b : Byte) (x : Flt) (he : b.toNat % 128 < 0x70 ∨ b.toNat % 128 = 0x7C ∨ 0x7E ≤ b.toNat % 128) :
    vifeCorrection b x = x := by
  unfold vifeCorrection
  rw [and7F, if_neg (by omega), if_neg (by omega), if_neg (by omega)]

theorem rd0 (b : Buf 10) : b.rd 0 = .ok (b.bytes[0]'(by simp)) := by
  unfold Buf.rd; exact rd_ok _

theorem vibUnitNormalize_ext (r : Record) (x : Flt) (hv : 0x80 ≤ r.vif.toNat) (h1 : r.vif ≠ 0xFD) (h2 : r.vif ≠ 0xFB)
    (h3 : r.vif ≠ 0xFC) (hk : (vifUnitNormalize ((r.vif.toNat % 128 : Nat) : Int) x).code = 0) :
    vibUnitNormalize r x = .ok (some { vifUnitNormalize ((r.vif.toNat % 128 : Nat) : Int) x with
      value := vifeCorrection (r.vife.bytes[0]'(by simp)) (vifUnitNormalize ((r.vif.toNat % 128 : Nat) : Int) x).value }) := by
  have h4 : ¬ r.vif = 0x7C := by intro h; rw [h] at hv; revert hv; decide
  unfold vibUnitNormalize
  rw [rd0, ok_bind, if_neg h1, if_neg h2, if_neg (by simp only [h4, h3, or_self, not_false_eq_true]), and7F]
  simp only [ok_bind]
  rw [if_neg (by rw [hk]; decide), if_pos ⟨(and80 _).2 hv, h1, h2⟩]

theorem vibUnitNormalize_fail (r : Record) (x : Flt) (hv : 0x80 ≤ r.vif.toNat) (h1 : r.vif ≠ 0xFD) (h2 : r.vif ≠ 0xFB)
    (h3 : r.vif ≠ 0xFC) (hk : (vifUnitNormalize ((r.vif.toNat % 128 : Nat) : Int) x).code ≠ 0) :
    vibUnitNormalize r x = .ok (some (vifUnitNormalize ((r.vif.toNat % 128 : Nat) : Int) x)) := by
  have h4 : ¬ r.vif = 0x7C := by intro h; rw [h] at hv; revert hv; decide
  unfold vibUnitNormalize
  rw [rd0, ok_bind, if_neg h1, if_neg h2, if_neg (by simp only [h4, h3, or_self, not_false_eq_true]), and7F]
  simp only [ok_bind]
  rw [if_pos hk]

theorem vibUnitNormalize_plain (r : Record) (x : Flt) (hv : r.vif.toNat < 0x80) (h : r.vif ≠ 0x7C) :
    vibUnitNormalize r x = .ok (some (vifUnitNormalize ((r.vif.toNat % 128 : Nat) : Int) x)) := by
  have h1 : ¬ r.vif = 0xFD := by intro h; rw [h] at hv; revert hv; decide
  have h2 : ¬ r.vif = 0xFB := by intro h; rw [h] at hv; revert hv; decide
  have h3 : ¬ r.vif = 0xFC := by intro h; rw [h] at hv; revert hv; decide
  unfold vibUnitNormalize
  rw [rd0, ok_bind, if_neg h1, if_neg h2, if_neg (by simp only [h, h3, or_self, not_false_eq_true]), and7F]
  simp only [ok_bind]
  have h5 : ¬ (r.vif.toNat &&& 0x80 ≠ 0 ∧ r.vif ≠ 0xFD ∧ r.vif ≠ 0xFB) := by
    intro hh; have := (and80 _).1 hh.1; omega
  rw [if_neg h5, ite_self]

theorem vibUnitNormalize_fdfb (r : Record) (x : Flt) (hn : r.nvife ≠ 0) :
    (r.vif = 0xFD → vibUnitNormalize r x =
      .ok (some (vifUnitNormalize (((r.vife.bytes[0]'(by simp)).toNat % 128 + 0x100 : Nat) : Int) x))) ∧
    (r.vif = 0xFB → vibUnitNormalize r x =
      .ok (some (vifUnitNormalize (((r.vife.bytes[0]'(by simp)).toNat % 128 + 0x200 : Nat) : Int) x))) := by
  have e1 : ∀ b : Byte, b.toNat &&& 0x7F ||| 0x100 = b.toNat % 128 + 0x100 := forall_byte (by decide +kernel)
  have e2 : ∀ b : Byte, b.toNat &&& 0x7F ||| 0x200 = b.toNat % 128 + 0x200 := forall_byte (by decide +kernel)
  refine ⟨fun h => ?_, fun h => ?_⟩
  · unfold vibUnitNormalize
    rw [rd0, ok_bind, if_pos h, if_neg hn, e1]
    simp only [ok_bind]
    rw [if_neg (show ¬ (r.vif.toNat &&& 0x80 ≠ 0 ∧ r.vif ≠ 0xFD ∧ r.vif ≠ 0xFB) from fun hh => hh.2.1 h), ite_self]
  · have h1 : ¬ r.vif = 0xFD := by rw [h]; decide
    unfold vibUnitNormalize
    rw [rd0, ok_bind, if_neg h1, if_pos h, if_neg hn, e2]
    simp only [ok_bind]
    rw [if_neg (show ¬ (r.vif.toNat &&& 0x80 ≠ 0 ∧ r.vif ≠ 0xFD ∧ r.vif ≠ 0xFB) from fun hh => hh.2.2 h), ite_self]

theorem vibUnitNormalize_custom (r : Record) (x : Flt) (c : List Byte) (hc : cstr r.customVif.bytes = .ok c)
    (h : r.vif = 0x7C ∨ r.vif = 0xFC) :
    vibUnitNormalize r x = .ok (some ⟨0, cs! "-",
      if r.vif = 0xFC then vifeCorrection (r.vife.bytes[0]'(by simp)) x else x, c⟩) := by
  have h1 : ¬ r.vif = 0xFD := by rcases h with h | h <;> rw [h] <;> decide
  have h2 : ¬ r.vif = 0xFB := by rcases h with h | h <;> rw [h] <;> decide
  unfold vibUnitNormalize
  rw [rd0, ok_bind, if_neg h1, if_neg h2, if_pos h, hc]
  simp only [ok_bind, ne_eq, not_true_eq_false, if_false]
  rcases h with h | h
  · rw [if_neg (by rw [h]; decide), if_neg (by rw [h]; decide)]
  · rw [if_pos (by rw [h]; decide), if_pos h]

theorem snp_eq {cap : Nat} {t : List Byte} (h : t.length < cap) : snp cap t = t := by
  unfold snp; rw [List.take_of_length_le (by omega)]

theorem lookup_mem {k : Nat} {v : List Byte} : ∀ {t : List (Nat × List Byte)}, t.lookup k = some v → (k, v) ∈ t
  | [], h => by cases h
  | (a, b) :: t, h => by
    rw [List.lookup_cons] at h
    by_cases e : k = a
    · subst e; rw [beq_self_eq_true] at h; cases h; exact List.mem_cons_self
    · rw [beq_false_of_ne e] at h; exact List.mem_cons_of_mem _ (lookup_mem h)

theorem caseOf_lt (k : Nat) (t : List (Nat × List Byte)) (d : List Byte) (cap : Nat) (h : ∀ p ∈ t, p.2.length < cap)
    (hd : d.length < cap) : ((caseOf k t).getD d).length < cap := by
  unfold caseOf
  cases e : t.lookup k with
  | none => exact hd
  | some v => exact h _ (lookup_mem e)

theorem padZero_length_ge (w : Nat) (l : List Byte) : l.length ≤ (padZero w l).length := by
  unfold padZero; simp

theorem fmtHexInt_length (e : Int) : (fmtHexInt e).length ≤ 8 := by
  have h8 := padZero_hex 8 (e % 4294967296).toNat (by decide) (by
    have : e % 4294967296 < 4294967296 := Int.emod_lt_of_pos _ (by decide)
    omega)
  have hl : (hexDigits (e % 4294967296).toNat).length ≤ 8 := by
    have := padZero_length_ge 8 (hexDigits (e % 4294967296).toNat)
    rw [h8, hexW_length] at this; exact this
  unfold fmtHexInt padZero
  rw [List.length_append, List.length_replicate]; omega

theorem fmtInt_length (e : Int) (h : isInt32 e = true) : (fmtInt e).length ≤ 11 := by
  have hb : e.natAbs < 10 ^ 10 := by
    simp only [isInt32, Bool.and_eq_true, decide_eq_true_eq] at h; omega
  have h10 := padZero_dec 10 e.natAbs (by decide) hb
  have hl : (decDigits e.natAbs).length ≤ 10 := by
    have := padZero_length_ge 10 (decDigits e.natAbs)
    rw [h10, decW_length] at this; exact this
  unfold fmtInt
  split <;> simp <;> omega

theorem unitPrefix_length (e : Int) (h : isInt32 e = true) : (unitPrefix e).length < 256 := by
  have := fmtInt_length e h
  unfold unitPrefix
  repeat' split
  all_goals simp only [List.length_append, List.length_cons, List.length_nil]
  all_goals omega

set_option maxRecDepth 100000 in
theorem vifText_lt : ∀ v : Byte, (vifUnitText v).length < 256 ∧ (fbText v).length < 256 ∧ (fdText v).length < 256 :=
  forall_byte (by decide +kernel)

set_option maxRecDepth 100000 in
theorem vifText_lt' : ∀ v : Byte, (vifUnitText v).length < 128 ∧ (fbText v).length < 128 ∧ (fdText v).length < 128 :=
  forall_byte (by decide +kernel)

theorem takeWhile_lt (l : List Byte) (h : 0 ∈ l) : (l.takeWhile (· ≠ 0)).length < l.length := by
  induction l with
  | nil => cases h
  | cons a l ih =>
    by_cases ha : a = 0
    · subst ha; simp
    · have : 0 ∈ l := by
        rcases List.mem_cons.1 h with h | h
        · exact absurd h.symm ha
        · exact h
      rw [List.takeWhile_cons_of_pos (by simpa using ha)]
      simp only [List.length_cons]
      have := ih this
      omega

theorem cstr_lt (l c : List Byte) (h : cstr l = .ok c) : c.length < l.length := by
  unfold cstr at h
  by_cases h0 : (0 : Byte) ∈ l
  · rw [if_pos h0] at h
    injection h with h; subst h
    exact takeWhile_lt l h0
  · rw [if_neg h0] at h; cases h

theorem prefix6_length (b : Byte) : (unitPrefix (((b &&& 0x07).toNat : Int) - 6)).length ≤ 5 :=
  forall_byte (P := fun b => (unitPrefix (((b &&& 0x07).toNat : Int) - 6)).length ≤ 5) (by decide +kernel) b

theorem snp_length_le (cap : Nat) (t : List Byte) : (snp cap t).length ≤ t.length := by
  unfold snp; rw [List.length_take]; omega

theorem vibUnitText_lt (r : Record) (t : List Byte) (h : vibUnitText r = .ok t) :
    t.length < 256 ∧ (r.vif ≠ 0xFC → t.length < 128) := by
  unfold vibUnitText at h
  rw [rd0, ok_bind] at h
  by_cases h1 : r.vif = 0xFB
  · rw [if_pos h1] at h
    by_cases hn : r.nvife = 0
    · rw [if_pos hn] at h; injection h with h; subst h; exact ⟨by decide, fun _ => by decide⟩
    · rw [if_neg hn] at h; injection h with h; subst h
      have := snp_length_le 256 (fbText (r.vife.bytes[0]'(by simp)))
      have := (vifText_lt' (r.vife.bytes[0]'(by simp))).2.1
      omega
  rw [if_neg h1] at h
  by_cases h2 : r.vif = 0xFD
  · rw [if_pos h2] at h
    by_cases hn : r.nvife = 0
    · rw [if_pos hn] at h; injection h with h; subst h; exact ⟨by decide, fun _ => by decide⟩
    · rw [if_neg hn] at h; injection h with h; subst h
      have := snp_length_le 256 (fdText (r.vife.bytes[0]'(by simp)))
      have := (vifText_lt' (r.vife.bytes[0]'(by simp))).2.2
      omega
  rw [if_neg h2] at h
  by_cases h3 : r.vif = 0x7C
  · rw [if_pos h3] at h
    have := cstr_lt _ _ h
    rw [Buf.length_bytes] at this
    omega
  rw [if_neg h3] at h
  by_cases h4 : r.vif = 0xFC ∧ (r.vife.bytes[0]'(by simp)) &&& 0x78 = 0x70
  · rw [if_pos h4] at h
    obtain ⟨c, hc, h⟩ := bind_eq_ok.1 h
    injection h with h; subst h
    have := cstr_lt _ _ hc
    rw [Buf.length_bytes] at this
    have := prefix6_length (r.vife.bytes[0]'(by simp))
    refine ⟨?_, fun hh => absurd h4.1 hh⟩
    simp only [List.length_append, List.length_cons, List.length_nil]; omega
  rw [if_neg h4] at h
  injection h with h; subst h
  have := snp_length_le 256 (vifUnitText r.vif)
  have := (vifText_lt' r.vif).1
  unfold vifUnitLookup
  omega

theorem productRules_short : ∀ e ∈ productRules, ∀ p ∈ e.2, p.label.length < 128 := by decide +kernel

theorem productNameText_lt (h : VarHeader) (a b c : Byte) : (productNameText h a b c).length < 128 := by
  unfold productNameText
  simp only
  cases h1 : productRules.find? _ with
  | none => exact (by decide : ([] : List Byte).length < 128)
  | some e =>
    simp only
    cases h2 : e.2.find? _ with
    | none => exact (by decide : ([] : List Byte).length < 128)
    | some p => exact productRules_short e (List.mem_of_find?_eq_some h1) p (List.mem_of_find?_eq_some h2)

theorem productName_ok (h : VarHeader) : ∃ t, productName h = .ok t ∧ t.length < 128 := by
  unfold productName Buf.rd
  rw [rd_ok (by simp), ok_bind, rd_ok (by simp), ok_bind, rd_ok (by simp), ok_bind]
  unfold strcpyS
  rw [if_pos (productNameText_lt _ _ _ _)]
  exact ⟨_, rfl, productNameText_lt _ _ _ _⟩

end Mbus
