import Verif.Spec.VifNames
import Verif.Props.Units
import Verif.Props.Double
/-
Property theorems C111: the labels of records and the names of normalised quantities are the documented ones.  Vocabulary: Spec/VifNames.lean, Spec/Units.lean.
-/
namespace Mbus
open Spec

/-- The label of a code. -/
def labelOf (code : Nat) : List Byte :=
  if code < 0x100 then vifUnitText (UInt8.ofNat code) else if code < 0x200 then fdText (UInt8.ofNat (code - 0x100)) else fbText (UInt8.ofNat (code - 0x200))

/-- A quicker test of `LabelSays`. -/
def saysCheck (label head : List Byte) (f : Rat) (u : List Byte) : Bool :=
  head.isPrefixOf label && multiples.any fun p => p.1.isPrefixOf (label.drop head.length) &&
    unitWords.any fun w => (w.1 == (label.drop head.length).drop p.1.length) && decide ((10 : Rat) ^ p.2 * w.2.1 = f) && decide (w.2.2 = u ∨ p.1 ++ w.1 = [])

theorem prefix_drop {h l : List Byte} (e : h.isPrefixOf l = true) : l = h ++ l.drop h.length := by
  obtain ⟨t, rfl⟩ := List.isPrefixOf_iff_prefix.mp e
  simp

theorem says_of_check {label head : List Byte} {f : Rat} {u : List Byte} (h : saysCheck label head f u = true) : LabelSays label head f u := by
  unfold saysCheck at h
  rw [Bool.and_eq_true, List.any_eq_true] at h
  obtain ⟨h1, p, hp, h2⟩ := h
  rw [Bool.and_eq_true, List.any_eq_true] at h2
  obtain ⟨h2, w, hw, h3⟩ := h2
  rw [Bool.and_eq_true, Bool.and_eq_true] at h3
  obtain ⟨⟨h3, h4⟩, h5⟩ := h3
  refine ⟨p, hp, w, hw, ?_, of_decide_eq_true h4, of_decide_eq_true h5⟩
  rw [eq_of_beq h3, List.append_assoc, ← prefix_drop h2, ← prefix_drop h1]

def labelCheck (c : Nat) : Bool :=
  match docName c, docScale c with
  | some n, some d => saysCheck (labelOf c) n.head d.1 d.2
  | some n, none => decide (labelOf c = n.head)
  | none, _ => true

theorem labelCheck_all : ∀ c : Fin 768, c.val ≠ 0x79 → c.val ≠ 0x7E → labelCheck c.val = true := by decide +kernel

/-- Documented codes with their labels. -/
def namedCodes : List Nat := (List.range 768).filter fun c => (docName c).isSome

theorem labels_nodup : (namedCodes.map labelOf).Nodup := by decide +kernel

theorem labels_inj {a b : Nat} (ha : a < 768) (hb : b < 768) (na : (docName a).isSome = true) (nb : (docName b).isSome = true) (h : labelOf a = labelOf b) : a = b := by
  have mem : ∀ {c : Nat}, c < 768 → (docName c).isSome = true → c ∈ namedCodes := fun h1 h2 => List.mem_filter.mpr ⟨List.mem_range.mpr h1, h2⟩
  have key : ∀ l : List Nat, (l.map labelOf).Nodup → a ∈ l → b ∈ l → a = b := by
    intro l
    induction l with
    | nil => intro _ h; cases h
    | cons x l ih =>
      intro hn h1 h2
      rw [List.map_cons, List.nodup_cons] at hn
      rcases List.mem_cons.mp h1 with e1 | e1
      · rcases List.mem_cons.mp h2 with e2 | e2
        · rw [e1, e2]
        · exact absurd (List.mem_map.mpr ⟨b, e2, by rw [← h, e1]⟩) hn.1
      · rcases List.mem_cons.mp h2 with e2 | e2
        · exact absurd (List.mem_map.mpr ⟨a, e1, by rw [h, e2]⟩) hn.1
        · exact ih hn.2 e1 e2
  exact key _ labels_nodup (mem ha na) (mem hb nb)

theorem label_primary : ∀ v : Byte, (docName (v.toNat % 128)).isSome = true → v.toNat % 128 ≠ 0x79 → v.toNat % 128 ≠ 0x7E →
    vifUnitText v = labelOf (v.toNat % 128) := forall_byte (by decide +kernel)
theorem label_ext_fd : ∀ v : Byte, fdText v = labelOf (0x100 + v.toNat % 128) := forall_byte (by decide +kernel)
theorem label_ext_fb : ∀ v : Byte, (docName (0x200 + v.toNat % 128)).isSome = true → fbText v = labelOf (0x200 + v.toNat % 128) := forall_byte (by decide +kernel)

theorem vife_rd0 (r : Record) : r.vife.rd 0 = .ok (r.vife.bytes.headD 0) := by
  have key : ∀ b : Buf 10, b.rd 0 = .ok (b.bytes.headD 0) := by
    rintro ⟨l, hl⟩
    match l, hl with
    | b :: l, _ => rfl
  exact key _

theorem scaleCode_lt {r : Record} {code : Nat} (hc : scaleCode r = some code) : code < 768 := by
  have : firstVife r < 128 := Nat.mod_lt _ (by decide)
  unfold scaleCode at hc
  repeat' split at hc
  all_goals first
    | (cases hc; done)
    | (injection hc with hc; have := r.vif.toNat_lt; omega)

/-- The unit text of a record with a documented code. -/
theorem recordUnit_label (r : Record) (code : Nat) (hc : scaleCode r = some code) (hn : (docName code).isSome = true) (hx : r.vif = 0xFD ∨ r.vif = 0xFB → r.nvife ≠ 0)
    (h1 : code ≠ 0x79) (h2 : code ≠ 0x7E) : recordUnit r = .ok (labelOf code) := by
  unfold scaleCode at hc
  have key : vibUnitText r = .ok (labelOf code) ∧ r.vif ≠ 0xFC := by
    unfold vibUnitText
    rw [vife_rd0, ok_bind]
    by_cases hd : r.vif = 0xFD
    · rw [if_pos hd] at hc
      injection hc with hc
      subst hc
      rw [if_neg (by rw [hd]; decide), if_pos hd, if_neg (hx (.inl hd)), (C64_vif _).2.2, label_ext_fd]
      exact ⟨rfl, by rw [hd]; decide⟩
    rw [if_neg hd] at hc
    by_cases hb : r.vif = 0xFB
    · rw [if_pos hb] at hc
      injection hc with hc
      subst hc
      rw [if_pos hb, if_neg (hx (.inr hb)), (C64_vif _).2.1, label_ext_fb _ hn]
      exact ⟨rfl, by rw [hb]; decide⟩
    rw [if_neg hb] at hc
    by_cases hcu : r.vif = 0x7C ∨ r.vif = 0xFC
    · rw [if_pos hcu] at hc; cases hc
    rw [if_neg hcu] at hc
    injection hc with hc
    subst hc
    rw [if_neg hb, if_neg hd, if_neg (fun h => hcu (.inl h)), if_neg (fun h => hcu (.inr h.1)), (C64_vif _).1, label_primary _ hn h1 h2]
    exact ⟨rfl, fun h => hcu (.inr h)⟩
  exact C64_record_unit_partial r _ key.1 key.2

/-- C111: the unit text of every record with a documented code is the documented name, followed by a multiple and a unit that together mean the documented scale.
Missing: the codes 0x79 and 0x7E (`C111_label_violation`); the correction by a VIFE is not shown (`C111_correction_violation`). -/
theorem C111_label_partial (r : Record) (code : Nat) (n : DocName) (hc : scaleCode r = some code) (hn : docName code = some n)
    (hx : r.vif = 0xFD ∨ r.vif = 0xFB → r.nvife ≠ 0) (h1 : code ≠ 0x79) (h2 : code ≠ 0x7E) :
    ∃ label, recordUnit r = .ok label ∧ (∀ d, docScale code = some d → LabelSays label n.head d.1 d.2) ∧ (docScale code = none → label = n.head) := by
  refine ⟨_, recordUnit_label r code hc (by rw [hn]; rfl) hx h1 h2, ?_⟩
  have := labelCheck_all ⟨code, scaleCode_lt hc⟩ h1 h2
  unfold labelCheck at this
  simp only [hn] at this
  cases hd : docScale code with
  | none =>
    rw [hd] at this
    exact ⟨fun d h => (by cases h), fun _ => of_decide_eq_true this⟩
  | some d =>
    rw [hd] at this
    refine ⟨fun d' h => ?_, fun h => (by cases h)⟩
    injection h with h
    subst h
    exact says_of_check this

/-- C111: two records with documented codes and the same unit text have the same code. -/
theorem C111_unambiguous (r r' : Record) (c c' : Nat) (hc : scaleCode r = some c) (hc' : scaleCode r' = some c') (hn : (docName c).isSome = true) (hn' : (docName c').isSome = true)
    (hx : r.vif = 0xFD ∨ r.vif = 0xFB → r.nvife ≠ 0) (hx' : r'.vif = 0xFD ∨ r'.vif = 0xFB → r'.nvife ≠ 0)
    (h : c ≠ 0x79 ∧ c ≠ 0x7E) (h' : c' ≠ 0x79 ∧ c' ≠ 0x7E) (e : recordUnit r = recordUnit r') : c = c' := by
  rw [recordUnit_label r c hc hn hx h.1 h.2, recordUnit_label r' c' hc' hn' hx' h'.1 h'.2] at e
  injection e with e
  exact labels_inj (scaleCode_lt hc) (scaleCode_lt hc') hn hn' e

/-- C111: every code with a documented scale has a documented name. -/
theorem C111_all_named (code : Nat) (d : Rat × List Byte) (h : docScale code = some d) : (docName code).isSome = true := by
  have hlt : code < 768 := by
    unfold docScale at h
    cases hf : docRanges.find? (fun r => decide (r.lo ≤ code) && decide (code ≤ r.hi)) with
    | none => rw [hf] at h; cases h
    | some r =>
      have h1 := List.find?_some hf
      have h2 : ∀ r ∈ docRanges, r.hi < 768 := by
        intro r hr
        have : docRanges.all (fun r => decide (r.hi < 768)) = true := by decide +kernel
        exact of_decide_eq_true (List.all_eq_true.mp this r hr)
      have h3 := h2 r (List.mem_of_find?_eq_some hf)
      simp only [Bool.and_eq_true, decide_eq_true_eq] at h1
      omega
  have key : ∀ c : Fin 768, (docScale c.val).isSome = true → (docName c.val).isSome = true := by decide +kernel
  exact key ⟨code, hlt⟩ (by simp only; rw [h]; rfl)

def quantityCheck (c : Nat) : Bool :=
  match docName c with
  | some n => (vifTable.find? (fun r => r.vif == c)).map (·.quantity) == some n.quantity
  | none => true

theorem quantityCheck_all : ∀ c : Fin 768, c.val ≠ 0x130 → quantityCheck c.val = true := by decide +kernel

/-- C111: the quantity of a normalised record is the documented name of its code.
Missing: code 0x130 (`C111_quantity_violation`). -/
theorem C111_quantity_partial (code : Nat) (n : DocName) (hn : docName code = some n) (hc : code % 256 < 128) (hl : code < 768) (h : code ≠ 0x130) (x : Flt) :
    (vifUnitNormalize (code : Int) x).quantity = n.quantity := by
  have hm : (((code : Int) % 4096).toNat &&& 0xF7F) = code := by
    have e : ((code : Int) % 4096).toNat = code := by omega
    rw [e]; exact mask_code ⟨code, hl⟩ hc
  have := quantityCheck_all ⟨code, hl⟩ h
  unfold quantityCheck at this
  simp only [hn] at this
  unfold vifUnitNormalize
  dsimp only
  rw [hm]
  cases hf : vifTable.find? (fun r => r.vif == code) with
  | none => rw [hf] at this; exact absurd this (by simp)
  | some row =>
    rw [hf] at this
    simpa using this

theorem custom_prefix : ∀ v : Byte, 0x70 ≤ v.toNat % 128 ∧ v.toNat % 128 ≤ 0x77 → v &&& 0x78 = 0x70 ∧
    (prefixes.find? (fun p => p.2 == ((v.toNat % 128 : Nat) : Int) - 0x70 - 6)).map (·.1) = some (unitPrefix (((v &&& 0x07).toNat : Int) - 6)) := forall_byte (by decide +kernel)

theorem custom_other : ∀ v : Byte, ¬ (0x70 ≤ v.toNat % 128 ∧ v.toNat % 128 ≤ 0x77) → ¬ (v &&& 0x78 = 0x70) := forall_byte (by decide +kernel)

/-- C111: a unit given as text is shown as it was sent; a multiplying VIFE 10^k is shown before it, any other VIFE hides it. -/
theorem C111_custom (r : Record) (c : List Byte) (hc : cstr r.customVif.bytes = .ok c) :
    (r.vif = 0x7C → recordUnit r = .ok c) ∧
    (r.vif = 0xFC → 0x70 ≤ firstVife r ∧ firstVife r ≤ 0x77 → ∃ p ∈ prefixes, p.2 = (firstVife r : Int) - 0x70 - 6 ∧ vibUnitLookup r = .ok (p.1 ++ cs! " " ++ c)) ∧
    (r.vif = 0xFC → ¬ (0x70 ≤ firstVife r ∧ firstVife r ≤ 0x77) → recordUnit r = .ok (cs! "Custom VIF")) := by
  refine ⟨fun h => ?_, fun h h7 => ?_, fun h h7 => ?_⟩
  · refine C64_record_unit_partial r c ?_ (by rw [h]; decide)
    unfold vibUnitText
    rw [vife_rd0, ok_bind, if_neg (by rw [h]; decide), if_neg (by rw [h]; decide), if_pos h]
    exact hc
  · obtain ⟨h1, h2⟩ := custom_prefix (r.vife.bytes.headD 0) h7
    cases hf : prefixes.find? (fun p => p.2 == (((r.vife.bytes.headD 0).toNat % 128 : Nat) : Int) - 0x70 - 6) with
    | none => rw [hf] at h2; cases h2
    | some p =>
      rw [hf] at h2
      injection h2 with h2
      have hq := List.find?_some hf
      refine ⟨p, List.mem_of_find?_eq_some hf, eq_of_beq hq, C64_vib r _ ?_⟩
      unfold vibUnitText
      rw [vife_rd0, ok_bind, if_neg (by rw [h]; decide), if_neg (by rw [h]; decide), if_neg (by rw [h]; decide), if_pos ⟨h, h1⟩, hc, ok_bind, ← h2]
  · have e : vibUnitText r = .ok (cs! "Custom VIF") := by
      unfold vibUnitText
      rw [vife_rd0, ok_bind, if_neg (by rw [h]; decide), if_neg (by rw [h]; decide), if_neg (by rw [h]; decide), if_neg (fun hh => custom_other _ h7 hh.2), h]
      rfl
    unfold recordUnit
    rw [C64_vib r _ e, ok_bind, snp_eq (by decide)]

/-- A telegram with the custom unit "kg" (sent backwards) times 10^3. -/
def customItem : Frame := rsp 0x72 (hdr ++ [0x01, 0xFC, 2, 0x67, 0x6B, 0x77, 5])

set_option maxRecDepth 10000 in
example : ∃ v r, variableParse customItem VarData.zero = .ok (0, v) ∧ v.records = [r] ∧ r.vif = 0xFC ∧ firstVife r = 0x77 ∧ cstr r.customVif.bytes = .ok (cs! "kg") := by
  refine ⟨_, _, rfl, rfl, ?_⟩
  decide +kernel

example : scaleCode (exRec 0xFD 0x25) = some 0x125 ∧ (docName 0x125).map (·.head) = some (cs! "Storage interval ") ∧ docScale 0x125 = some (60, cs! "s") ∧ (exRec 0xFD 0x25).nvife ≠ 0 ∧
    recordUnit (exRec 0xFD 0x25) = .ok (cs! "Storage interval minute(s)") := by decide +kernel

-- a label does not say just anything
example : ¬ LabelSays (cs! "Energy (kWh)") (cs! "Energy (") 1 (cs! "Wh") ∧ LabelSays (cs! "Energy (kWh)") (cs! "Energy (") 1000 (cs! "Wh") := by decide +kernel

/-- C111: the prefix of a power of ten is the one that means it, or the power is written out; never the prefix of another power. -/
theorem C111_prefix (e : Int) : (∀ p ∈ prefixes, p.2 = e → unitPrefix e = p.1) ∧ ((∀ p ∈ prefixes, p.2 ≠ e) → unitPrefix e = cs! "1e" ++ fmtInt e ++ cs! " ") := by
  constructor
  · intro p hp h
    subst h
    revert p
    decide +kernel
  · intro h
    have g : ∀ k : Int, k ∈ prefixes.map (·.2) → e ≠ k := by
      intro k hk he
      obtain ⟨p, hp, e2⟩ := List.mem_map.mp hk
      exact h p hp (by rw [he]; exact e2)
    unfold unitPrefix
    rw [if_neg (g 0 (by decide)), if_neg (g (-3) (by decide)), if_neg (g (-6) (by decide)), if_neg (g 1 (by decide)), if_neg (g 2 (by decide)), if_neg (g 3 (by decide)),
      if_neg (g 4 (by decide)), if_neg (g 5 (by decide)), if_neg (g 6 (by decide)), if_neg (g 9 (by decide))]

/-- C111 is false of the code: the label of the codes 0x79 and 0x7E says "Unknown", the quantity of 0xFD 0x30 (start of tariff) is "Reserved". -/
theorem C111_label_violation : (docName 0x79).isSome = true ∧ vifUnitLookup 0x79 = cs! "Unknown (VIF=0x79)" ∧ (docName 0x7E).isSome = true ∧
    vifUnitLookup 0x7E = cs! "Unknown (VIF=0x7E)" := by decide +kernel

theorem C111_quantity_violation : (docName 0x130).map (·.quantity) = some (cs! "Start (date/time) of tariff") ∧ (vifUnitNormalize 0x130 (.lit 1)).quantity = cs! "Reserved" := by
  decide +kernel

/-- Telegrams with the number 5: VIF 0x06 (kWh), and VIF 0x86 with VIFE 0x7D (kWh, times 1000). -/
def fiveKwh : Frame := rsp 0x72 (hdr ++ [0x01, 0x06, 5])
def fiveThousandKwh : Frame := rsp 0x72 (hdr ++ [0x01, 0x86, 0x7D, 5])

/-- C111 is false of the code for records with a correcting VIFE: 5 kWh and 5 * 1000 kWh have the same unit text and the same value text. -/
theorem C111_correction_violation : ∃ r r' v v', variableParse fiveKwh VarData.zero = .ok (0, v) ∧ v.records = [r] ∧
    variableParse fiveThousandKwh VarData.zero = .ok (0, v') ∧ v'.records = [r'] ∧ correctionOf r = .none ∧ correctionOf r' = .times 3 ∧
    recordUnit r = .ok (cs! "Energy (kWh)") ∧ recordUnit r' = .ok (cs! "Energy (kWh)") ∧ recordValue (List.replicate 768 0) r = .ok (cs! "5") ∧
    recordValue (List.replicate 768 0) r' = .ok (cs! "5") := by
  refine ⟨_, _, _, _, rfl, rfl, rfl, rfl, ?_⟩
  decide +kernel

/-! Direct instances of the theorems above. -/

theorem named_125 : ∃ n, docName 0x125 = some n := Option.isSome_iff_exists.mp (by decide +kernel)
example : ∃ label, ∃ n : DocName, recordUnit (exRec 0xFD 0x25) = .ok label ∧ LabelSays label n.head 60 (cs! "s") := by
  obtain ⟨n, hn⟩ := named_125
  obtain ⟨label, h1, h2, _⟩ := C111_label_partial (exRec 0xFD 0x25) 0x125 n (by decide +kernel) hn (by decide) (by decide) (by decide)
  exact ⟨label, n, h1, h2 (60, cs! "s") (by decide +kernel)⟩
example (e : recordUnit (exRec 0xFD 0x25) = recordUnit (exRec 0x06 0)) : False :=
  absurd (C111_unambiguous (exRec 0xFD 0x25) (exRec 0x06 0) 0x125 0x06 (by decide +kernel) (by decide +kernel) (by decide +kernel) (by decide +kernel) (by decide) (by decide)
    (by decide) (by decide) e) (by decide)
example := C111_all_named 0x125 (60, cs! "s") (by decide +kernel)
example : ∃ n, (vifUnitNormalize 0x125 (.lit 5)).quantity = n := by
  obtain ⟨n, hn⟩ := named_125
  exact ⟨_, C111_quantity_partial 0x125 n hn (by decide) (by decide) (by decide) (.lit 5)⟩

end Mbus
