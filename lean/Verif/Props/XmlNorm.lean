import Verif.Lemmas.XmlNorm
import Verif.Props.Xml
/-
Property theorem C79: XML of normalised records (`normGroup`, `Terse` from Spec/Xml.lean).
-/
namespace Mbus
open Spec

theorem cstr_zero {s t : List Byte} (h : cstr s = .ok t) : (0 : Byte) ∈ s := by
  unfold cstr at h
  split at h
  · assumption
  · cases h

theorem cstr_length {s t : List Byte} (h : cstr s = .ok t) : t.length < s.length := by
  have h0 := cstr_zero h
  have hn := cstr_nonul _ _ h
  rw [cstr_mem s h0] at h
  injection h with h
  have hp : t <+: s := by rw [← h]; exact List.takeWhile_prefix _
  have := hp.length_le
  rcases Nat.lt_or_ge t.length s.length with h' | h'
  · exact h'
  · rw [hp.eq_of_length (by omega)] at hn
    exact absurd h0 hn

/-- Bounds for the table of units. -/
theorem vifTable_short : ∀ row ∈ vifTable, ((0 : Byte) ∉ row.unit ∧ (escape row.unit).length ≤ 40) ∧
    ((0 : Byte) ∉ row.quantity ∧ (escape row.quantity).length ≤ 100) ∧ (0 ≤ row.exponent ∧ row.exponent ≤ 10000000000) := by
  decide +kernel

/-- A finite value has magnitude at most `k`. -/
def Below (k : Rat) (x : Flt) : Prop := ∀ neg m, x = .fin neg m → 0 ≤ m ∧ m ≤ k

theorem dbl_below {x k : Rat} (h0 : 0 ≤ x) (h1 : x ≤ k) : 0 ≤ dbl x ∧ dbl x ≤ 2 * k := by
  obtain ⟨n1, n2⟩ := dbl_near x
  have hm : mag x = x := if_neg (by grind)
  rw [hm] at n1 n2
  have hu : halfUlp * x ≤ 1 * x := Rat.mul_le_mul_of_nonneg_right (by decide +kernel) h0
  grind

theorem Below.mono {k l : Rat} {x : Flt} (h : Below k x) (hl : k ≤ l) : Below l x := fun neg m e => ⟨(h neg m e).1, Rat.le_trans (h neg m e).2 hl⟩

theorem lit_below {e f : Rat} (h0 : 0 ≤ e) (h1 : e ≤ f) : Below (2 * f) (.lit e) := by
  intro neg m h
  have hn : ¬ e < 0 := by grind
  simp only [Flt.lit, if_neg hn] at h
  injection h with _ h
  rw [← h]
  exact dbl_below h0 h1

theorem below_mul {x : Flt} {k e f : Rat} (hk : 0 ≤ k) (hx : Below k x) (h0 : 0 ≤ e) (h1 : e ≤ f) : Below (4 * (k * f)) (x.mul (.lit e)) := by
  intro neg m h
  cases x with
  | nan n => simp [Flt.mul] at h
  | inf n =>
    generalize Flt.lit e = y at h
    cases y with
    | nan n => simp [Flt.mul] at h
    | inf n => simp [Flt.mul] at h
    | fin n' g => simp only [Flt.mul] at h; split at h <;> cases h
  | fin n q =>
    obtain ⟨q0, q1⟩ := hx n q rfl
    have hl := lit_below h0 h1
    generalize Flt.lit e = y at h hl
    cases y with
    | nan n => simp [Flt.mul] at h
    | inf n => simp only [Flt.mul] at h; split at h <;> cases h
    | fin n' g =>
      obtain ⟨g0, g1⟩ := hl n' g rfl
      simp only [Flt.mul] at h
      injection h with _ h
      have h2 : q * g ≤ k * (2 * f) :=
        Rat.le_trans (Rat.mul_le_mul_of_nonneg_right q1 g0) (Rat.mul_le_mul_of_nonneg_left g1 hk)
      obtain ⟨d0, d1⟩ := dbl_below (Rat.mul_nonneg q0 g0) h2
      rw [← h]
      exact ⟨d0, by grind⟩

theorem below_add {x : Flt} {k e f : Rat} (hx : Below k x) (h0 : 0 ≤ e) (h1 : e ≤ f) : Below (2 * (k + 2 * f)) (x.add (.lit e)) := by
  intro neg m h
  cases x with
  | nan n => simp [Flt.add] at h
  | inf n => simp [Flt.lit, Flt.add] at h
  | fin n q =>
    obtain ⟨q0, q1⟩ := hx n q rfl
    have hl := lit_below h0 h1
    generalize Flt.lit e = y at h hl
    cases y with
    | nan n => simp [Flt.add] at h
    | inf n => simp [Flt.add] at h
    | fin n' g =>
      obtain ⟨g0, g1⟩ := hl n' g rfl
      simp only [Flt.add] at h
      generalize hs : ((if n = true then -q else q) + if n' = true then -g else g) = s at h
      have hs1 : s ≤ k + 2 * f ∧ -s ≤ k + 2 * f := by rw [← hs]; cases n <;> cases n' <;> simp <;> grind
      split at h
      · injection h with _ h
        rw [← h]
        exact ⟨by decide, by grind⟩
      · injection h with _ h
        rw [← h]
        split
        · exact dbl_below (by grind) hs1.2
        · exact dbl_below (by grind) hs1.1

theorem vifUnit_short (z : Int) (x : Flt) : let N := vifUnitNormalize z x
    ((0 : Byte) ∉ N.unit ∧ (escape N.unit).length ≤ 40) ∧ ((0 : Byte) ∉ N.quantity ∧ (escape N.quantity).length ≤ 100) ∧
    (Below (2 ^ 128) x → Below (4 * (2 ^ 128 * 10000000000)) N.value) := by
  intro N
  cases h : vifTable.find? (fun r => r.vif == (z % 4096).toNat &&& 0xF7F) with
  | none =>
    have : N = { code := -1, unit := cs! "Unknown (VIF=0x%.02X)", value := .lit 0, quantity := cs! "Unknown" } := by
      show vifUnitNormalize z x = _
      simp only [vifUnitNormalize, h]
    rw [this]
    exact ⟨by decide, by decide, fun _ => (lit_below (e := 0) (f := 0) (by decide) (by decide)).mono (by decide +kernel)⟩
  | some row =>
    have : N = { code := 0, unit := row.unit, value := x.mul (.lit row.exponent), quantity := row.quantity } := by
      show vifUnitNormalize z x = _
      simp only [vifUnitNormalize, h]
    rw [this]
    obtain ⟨h1, h2, h3⟩ := vifTable_short row (List.mem_of_find?_eq_some h)
    exact ⟨h1, h2, fun hx => below_mul (by decide +kernel) hx h3.1 h3.2⟩

theorem correction_below (v0 : Byte) (x : Flt) (hx : Below (4 * (2 ^ 128 * 10000000000)) x) : Below (10 ^ 59) (vifeCorrection v0 x) := by
  have p1 : ∀ b : Byte, (0 : Rat) ≤ (10 : Rat) ^ (((b.toNat &&& 0x07 : Nat) : Int) - 6) ∧ (10 : Rat) ^ (((b.toNat &&& 0x07 : Nat) : Int) - 6) ≤ 1000 :=
    forall_byte (by decide +kernel)
  have p2 : ∀ b : Byte, (0 : Rat) ≤ (10 : Rat) ^ (((b.toNat &&& 0x03 : Nat) : Int) - 3) ∧ (10 : Rat) ^ (((b.toNat &&& 0x03 : Nat) : Int) - 3) ≤ 1 :=
    forall_byte (by decide +kernel)
  unfold vifeCorrection
  dsimp only
  split
  · exact (below_mul (by decide +kernel) hx (p1 v0).1 (p1 v0).2).mono (by decide +kernel)
  · split
    · exact (below_add hx (p2 v0).1 (p2 v0).2).mono (by decide +kernel)
    · split
      · exact (below_mul (f := 1000) (by decide +kernel) hx (by decide) (by decide)).mono (by decide +kernel)
      · exact hx.mono (by decide +kernel)

theorem vibUnit_short (r : Record) (x : Flt) (c : List Byte) (hc : cstr r.customVif.bytes = .ok c) (N : Norm)
    (h : vibUnitNormalize r x = .ok (some N)) :
    ((0 : Byte) ∉ N.unit ∧ (escape N.unit).length ≤ 40) ∧ (0 : Byte) ∉ N.quantity ∧
    ((escape N.quantity).length ≤ 100 ∨ (N.quantity = c ∧ PlainText r.vif)) ∧ (Below (2 ^ 128) x → Below (10 ^ 59) N.value) := by
  have base : ∀ b : Norm, (((0 : Byte) ∉ b.unit ∧ (escape b.unit).length ≤ 40) ∧ (0 : Byte) ∉ b.quantity ∧
      ((escape b.quantity).length ≤ 100 ∨ (b.quantity = c ∧ PlainText r.vif)) ∧ (Below (2 ^ 128) x → Below (4 * (2 ^ 128 * 10000000000)) b.value)) →
      (N = b ∨ ∃ v0, N = { b with value := vifeCorrection v0 b.value }) →
      ((0 : Byte) ∉ N.unit ∧ (escape N.unit).length ≤ 40) ∧ (0 : Byte) ∉ N.quantity ∧
      ((escape N.quantity).length ≤ 100 ∨ (N.quantity = c ∧ PlainText r.vif)) ∧ (Below (2 ^ 128) x → Below (10 ^ 59) N.value) := by
    rintro b ⟨h1, h2, h3, h4⟩ hN
    rcases hN with rfl | ⟨v0, rfl⟩
    · exact ⟨h1, h2, h3, fun hx => (h4 hx).mono (by decide +kernel)⟩
    · exact ⟨h1, h2, h3, fun hx => correction_below v0 b.value (h4 hx)⟩
  have tab : ∀ z : Int, (((0 : Byte) ∉ (vifUnitNormalize z x).unit ∧ (escape (vifUnitNormalize z x).unit).length ≤ 40) ∧ (0 : Byte) ∉ (vifUnitNormalize z x).quantity ∧
      ((escape (vifUnitNormalize z x).quantity).length ≤ 100 ∨ ((vifUnitNormalize z x).quantity = c ∧ PlainText r.vif)) ∧
      (Below (2 ^ 128) x → Below (4 * (2 ^ 128 * 10000000000)) (vifUnitNormalize z x).value)) := by
    intro z
    obtain ⟨h1, h2, h3⟩ := vifUnit_short z x
    exact ⟨h1, h2.1, .inl h2.2, h3⟩
  unfold vibUnitNormalize at h
  rw [rd0, ok_bind] at h
  by_cases hfd : r.vif = 0xFD
  · rw [if_pos hfd, ok_bind] at h
    by_cases hn : r.nvife = 0
    · rw [if_pos hn] at h; cases h
    rw [if_neg hn] at h
    dsimp only at h
    split at h
    · injection h with h; injection h with h
      exact base _ (tab _) (.inl h.symm)
    · split at h
      · injection h with h; injection h with h
        exact base _ (tab _) (.inr ⟨_, h.symm⟩)
      · injection h with h; injection h with h
        exact base _ (tab _) (.inl h.symm)
  rw [if_neg hfd] at h
  by_cases hfb : r.vif = 0xFB
  · rw [if_pos hfb, ok_bind] at h
    by_cases hn : r.nvife = 0
    · rw [if_pos hn] at h; cases h
    rw [if_neg hn] at h
    dsimp only at h
    split at h
    · injection h with h; injection h with h
      exact base _ (tab _) (.inl h.symm)
    · split at h
      · injection h with h; injection h with h
        exact base _ (tab _) (.inr ⟨_, h.symm⟩)
      · injection h with h; injection h with h
        exact base _ (tab _) (.inl h.symm)
  rw [if_neg hfb] at h
  by_cases h7 : r.vif = 0x7C ∨ r.vif = 0xFC
  · rw [if_pos h7, hc, ok_bind, ok_bind] at h
    dsimp only at h
    have hcu : (((0 : Byte) ∉ (cs! "-") ∧ (escape (cs! "-")).length ≤ 40) ∧ (0 : Byte) ∉ c ∧
      ((escape c).length ≤ 100 ∨ (c = c ∧ PlainText r.vif)) ∧ (Below (2 ^ 128) x → Below (4 * (2 ^ 128 * 10000000000)) x)) :=
      ⟨by decide, cstr_nonul _ _ hc, .inr ⟨rfl, by rcases h7 with h | h <;> rw [h] <;> decide⟩, fun hx => hx.mono (by decide +kernel)⟩
    split at h
    · injection h with h; injection h with h
      exact base ⟨0, cs! "-", x, c⟩ hcu (.inl h.symm)
    · split at h
      · injection h with h; injection h with h
        exact base ⟨0, cs! "-", x, c⟩ hcu (.inr ⟨_, h.symm⟩)
      · injection h with h; injection h with h
        exact base ⟨0, cs! "-", x, c⟩ hcu (.inl h.symm)
  · rw [if_neg h7, ok_bind] at h
    dsimp only at h
    split at h
    · injection h with h; injection h with h
      exact base _ (tab _) (.inl h.symm)
    · split at h
      · injection h with h; injection h with h
        exact base _ (tab _) (.inr ⟨_, h.symm⟩)
      · injection h with h; injection h with h
        exact base _ (tab _) (.inl h.symm)


theorem bcd_bound (l : List Byte) :
    l.foldr (fun b v => b.toNat % 16 + 10 * (if b.toNat / 16 < 10 then b.toNat / 16 else 0) + 100 * v) 0 + 2 ≤ 2 * 100 ^ l.length := by
  induction l with
  | nil => simp
  | cons b l ih =>
    simp only [List.foldr_cons, List.length_cons, Nat.pow_succ]
    generalize l.foldr _ 0 = v at *
    have h1 : b.toNat % 16 ≤ 15 := by omega
    have h2 : (if b.toNat / 16 < 10 then b.toNat / 16 else 0) ≤ 9 := by split <;> omega
    omega

theorem bcdValue_small (l : List Byte) (h : l.length ≤ 6) : (bcdValue l).natAbs < 2 ^ 64 := by
  have h1 := bcd_bound l
  have h2 : 100 ^ l.length ≤ 100 ^ 6 := Nat.pow_le_pow_right (by decide) h
  unfold bcdValue
  dsimp only
  generalize l.foldr _ 0 = v at *
  split <;> omega

/-- The number of a record is below 2^128. -/
theorem number_bound (r : Record) (neg : Bool) (m : Rat) (h : (meaning r).number = some (.fin neg m)) : 0 ≤ m ∧ m < 2 ^ 128 := by
  have hI : ∀ z : Int, z.natAbs < 2 ^ 64 → Flt.ofInt z = .fin neg m → 0 ≤ m ∧ m < 2 ^ 128 := by
    intro z hz h
    unfold Flt.ofInt Flt.lit at h
    injection h with _ h
    subst h
    have h1 : ∃ n : Nat, n < 2 ^ 64 ∧ (if (z : Rat) < 0 then -(z : Rat) else (z : Rat)) = ((n : Nat) : Rat) := by
      refine ⟨z.natAbs, hz, ?_⟩
      rcases Int.natAbs_eq z with e | e
      · have : ¬ (z : Rat) < 0 := by
          rw [e, Rat.intCast_natCast]
          exact Rat.not_lt.mpr Rat.natCast_nonneg
        rw [if_neg this]
        exact congrArg Rat.ofInt e
      · by_cases h0 : (z : Rat) < 0
        · rw [if_pos h0]
          have : ((-(z.natAbs : Int) : Int) : Rat) = -((z.natAbs : Nat) : Rat) := by rw [Rat.intCast_neg, Rat.intCast_natCast]
          rw [← e] at this
          rw [this, Rat.neg_neg]
        · rw [if_neg h0]
          have h2 := Rat.not_lt.mp h0
          have h3 : 0 ≤ z := Rat.intCast_le_intCast.mp (by simpa using h2)
          have h4 : z = (z.natAbs : Int) := by omega
          exact congrArg Rat.ofInt h4
    obtain ⟨n, hn, e⟩ := h1
    rw [e]
    have h5 : (n : Rat) ≤ ((2 ^ 64 : Nat) : Rat) := Rat.natCast_le_natCast.mpr (by omega)
    obtain ⟨d0, d1⟩ := dbl_below Rat.natCast_nonneg h5
    exact ⟨d0, Std.lt_of_le_of_lt d1 (by decide +kernel)⟩
  have hL : ∀ n, n ≤ 8 → (leInt (r.data.bytes.take n)).natAbs < 2 ^ 64 := by
    intro n hn
    have := leInt_bound (r.data.bytes.take n) (by simp; omega)
    omega
  have hB : ∀ n, n ≤ 6 → (bcdValue (r.data.bytes.take n)).natAbs < 2 ^ 64 := fun n hn => bcdValue_small _ (by simp; omega)
  have hlt : r.dif.toNat % 16 < 16 := Nat.mod_lt _ (by decide)
  unfold meaning at h
  dsimp only at h
  generalize hk : r.dif.toNat % 16 = k at h hlt
  match k, hlt with
  | 0, _ => simp [Meaning.number] at h
  | 1, _ => simp only [Meaning.number] at h; injection h with h; exact hI _ (hL _ (by decide)) h
  | 2, _ =>
    simp only at h
    split at h
    · simp [Meaning.number] at h
    · simp only [Meaning.number] at h; injection h with h; exact hI _ (hL _ (by decide)) h
  | 3, _ => simp only [Meaning.number] at h; injection h with h; exact hI _ (hL _ (by decide)) h
  | 4, _ =>
    simp only at h
    split at h
    · simp [Meaning.number] at h
    · simp only [Meaning.number] at h; injection h with h; exact hI _ (hL _ (by decide)) h
  | 5, _ => simp only [Meaning.number] at h; injection h with h; exact ieee32_lt _ neg m h
  | 6, _ =>
    simp only at h
    split at h
    · simp [Meaning.number] at h
    · simp only [Meaning.number] at h; injection h with h; exact hI _ (hL _ (by decide)) h
  | 7, _ => simp only [Meaning.number] at h; injection h with h; exact hI _ (hL _ (by decide)) h
  | 8, _ => simp [Meaning.number] at h
  | 9, _ => simp only [Meaning.number] at h; injection h with h; exact hI _ (hB _ (by decide)) h
  | 10, _ => simp only [Meaning.number] at h; injection h with h; exact hI _ (hB _ (by decide)) h
  | 11, _ => simp only [Meaning.number] at h; injection h with h; exact hI _ (hB _ (by decide)) h
  | 12, _ => simp only [Meaning.number] at h; injection h with h; exact hI _ (hB _ (by decide)) h
  | 13, _ =>
    simp only at h
    split at h <;> simp [Meaning.number] at h
  | 14, _ => simp only [Meaning.number] at h; injection h with h; exact hI _ (hB _ (by decide)) h
  | 15, _ => simp [Meaning.number] at h
  | n + 16, h => exact absurd h (by omega)

theorem fmtF_short (x : Flt) (h : ∀ neg m, x = .fin neg m → 0 ≤ m ∧ m < ((10 ^ 60 : Nat) : Rat)) : (fmtF x).length ≤ 80 := by
  cases x with
  | inf neg => cases neg <;> decide
  | nan neg => cases neg <;> decide
  | fin neg m =>
    obtain ⟨h0, h1⟩ := h neg m rfl
    have hb : roundEven (m * 1000000) ≤ 10 ^ 60 * 1000000 := by
      refine roundEven_le _ _ (Rat.mul_nonneg h0 (by decide)) ?_
      rw [Rat.natCast_mul]
      exact Rat.mul_lt_mul_of_pos_right h1 (by decide)
    have a := decDigits_length (roundEven (m * 1000000) / 1000000) 61 (by decide) (by omega)
    have b := congrArg List.length (padZero_dec 6 (roundEven (m * 1000000) % 1000000) (by decide) (by omega))
    rw [decW_length] at b
    simp only [fmtF, List.length_append, b, List.length_cons, List.length_nil]
    split <;> simp <;> omega

theorem Delivered.special_plain {r : Record} (h : Delivered r) (hs : Special r) : r.ndife = 0 := by
  obtain ⟨f, v, v', hs', hp, hr⟩ := h
  obtain ⟨_, _, rs, ht, hrs, _⟩ := variableParse_sound f v v' hs' hp
  rw [hrs] at hr
  obtain ⟨w, hw, rfl⟩ := List.mem_map.mp hr
  have hL := tiles_legal ht w hw
  cases w with
  | special dif data => rfl
  | value dif difes vif text vifes data =>
    rcases hs with h | h
    · exact absurd h hL.1
    · exact absurd h hL.2.1

theorem number_below (r : Record) (x : Flt) (hx : (meaning r).number = some x) : Below (2 ^ 128) x := by
  intro neg m h
  rw [h] at hx
  obtain ⟨h1, h2⟩ := number_bound r neg m hx
  exact ⟨h1, Rat.le_of_lt h2⟩

theorem below_short {x : Flt} (h : Below (10 ^ 59) x) : (fmtF x).length ≤ 80 :=
  fmtF_short x fun neg m e => ⟨(h neg m e).1, Std.lt_of_le_of_lt (h neg m e).2 (by decide +kernel)⟩

theorem words_short {r : Record} (h : Delivered r) (hs : ¬ Special r) (t : List Byte) (ht : (meaning r).words = some t) : t.length ≤ 233 := by
  have h1 := h.shown_short hs
  unfold shown at h1
  cases hm : meaning r with
  | empty => rw [hm] at ht; injection ht with ht; subst ht; simp
  | int v => rw [hm] at ht; cases ht
  | real v => rw [hm] at ht; cases ht
  | date d => rw [hm] at ht; injection ht with ht; subst ht; simp
  | dateTime d => rw [hm] at ht; injection ht with ht; subst ht; simp
  | bcd ds => rw [hm] at ht; cases ht
  | text s =>
    rw [hm] at ht h1
    injection ht with ht
    subst ht
    have := upToNul_length s
    dsimp only at h1
    omega
  | raw bs => rw [hm] at ht h1; injection ht with ht; subst ht; exact h1
  | selection => rw [hm] at ht; cases ht

theorem special_raw {r : Record} (hs : Special r) : meaning r = .raw (r.data.bytes.take r.dataLen).reverse := by
  unfold meaning
  rcases hs with h | h <;> rw [h] <;> rfl

/-- C79, on which records the restriction of `C79_partial` is met: manufacturer specific data, and all others whose quantity and
text contain none of the characters & < > " (for a number: whose quantity does not). -/
theorem C79_plain_partial (junk : Nat → Byte) (r : Record) (n : NRecord) (leak : Option (List Byte)) (hr : Delivered r) (hst : StorageOk r)
    (hn : parseVariableRecord junk r = .ok (some n, leak))
    (hp : Special r ∨ (Plain (n.quantity.getD []) ∧ ∀ t, (meaning r).words = some t → Plain t)) : Terse n := by
  obtain ⟨o, res, leak', ho, hd, _, hres, hiff, _, hall⟩ := parseVariableRecord_eq hr hst junk
  rw [hn] at hres
  injection hres with hres
  injection hres with hres _
  subst hres
  obtain ⟨_, hta, _, _, hsp, hnsp, hstr⟩ := hall n rfl
  obtain ⟨d1, d2, d3⟩ := decoded_split hd
  obtain ⟨⟨c, hc⟩, _⟩ := hr.unit
  have htext : ∀ t, (meaning r).words = some t → normText n = escape t := by
    intro t ht
    obtain ⟨_, s, hs, hcs⟩ := d2 t ht
    unfold normText
    rw [hstr s hs]
    dsimp only
    rw [cstr_mem s (cstr_zero hcs)] at hcs
    injection hcs with hcs
    rw [hcs]
  unfold Terse
  by_cases hs : Special r
  · obtain ⟨u1, u2⟩ := hsp hs
    have hm := special_raw hs
    have := htext _ (by rw [hm]; rfl)
    rw [this, u1, u2, hta, if_pos (hr.special_plain hs), if_neg (by decide)]
    rw [escape_plain_length _ (hexDump_plain _).1, (hexDump_plain _).2]
    have := hr.bounds.1
    simp [escape]
    omega
  · obtain ⟨p1, p2⟩ := hp.resolve_left hs
    obtain ⟨N, hN, hu, hq, hv⟩ := hnsp hs
    obtain ⟨⟨_, s1⟩, _, s3, s4⟩ := vibUnit_short r _ c hc N hN
    rw [hu, hq]
    rw [hq] at p1
    have hql : (escape N.quantity).length ≤ 127 := by
      rcases s3 with s3 | ⟨s3, _⟩
      · omega
      · have p1 : Plain N.quantity := p1
        rw [escape_plain_length _ p1, s3]
        have := cstr_length hc
        rw [Buf.length_bytes] at this
        omega
    have hvl : (normText n).length ≤ 233 := by
      rcases Meaning.kinds (meaning r) with ⟨x, hx, _⟩ | ⟨t, ht, _⟩ | ⟨hx, _⟩
      · obtain ⟨_, h2, h3⟩ := d1 x hx
        unfold normText
        rw [hv h2]
        rw [h3] at s4
        have := below_short (s4 (number_below r x hx))
        dsimp only
        omega
      · rw [htext t ht, escape_plain_length _ (p2 t ht)]
        exact words_short hr hs t ht
      · cases hiff.mpr (.inl hx)
    show (escape N.unit).length + (escape N.quantity).length + _ ≤ _
    split <;> omega

theorem fmtInt_nat31 (n : Nat) (h : n < 2 ^ 31) : (fmtInt (n : Int)).length ≤ 11 :=
  fmtInt_length _ (by simp [isInt32]; omega)

theorem normalised_fit {r : Record} (hr : Delivered r) (hst : StorageOk r) (junk : Nat → Byte) :
    ∃ n leak, parseVariableRecord junk r = .ok (n, leak) ∧ ∀ m, n = some m → NFit m := by
  obtain ⟨o, res, leak, ho, hd, _, hres, hiff, _, hall⟩ := parseVariableRecord_eq hr hst junk
  refine ⟨res, leak, hres, fun m hm => ?_⟩
  obtain ⟨a1, a2, a3, a4, a5, a6, a7⟩ := hall m hm
  obtain ⟨d1, d2, d3⟩ := decoded_split hd
  obtain ⟨f1, f2, f3⟩ := functionLabel_short r
  obtain ⟨t1, t2⟩ := tariff_short (r.dife.bytes.take r.ndife) (by simp; have := hst.1; omega)
  obtain ⟨⟨c, hc⟩, _⟩ := hr.unit
  have neg1 : (fmtInt (-1)).length ≤ 11 := fmtInt_length _ (by decide)
  have nat : ∀ n : Nat, (decDigits n).length ≤ 5 → (fmtInt (n : Int)).length ≤ 11 := fun n h => by
    unfold fmtInt
    rw [if_neg (by omega)]
    simp only [Int.natAbs_natCast]
    omega
  refine ⟨⟨by rw [a4]; exact f2, by rw [a4, f3]; exact f1⟩, ?_, ?_, ?_, ?_, ?_, ?_⟩
  · rw [a1]; exact fmtInt_nat31 _ hst.2
  · rw [a2]; split
    · exact neg1
    · exact nat _ t1
  · rw [a3]; split
    · exact neg1
    · exact nat _ (by omega)
  · by_cases hs : Special r
    · rw [(a5 hs).1]; simp
    · obtain ⟨N, hN, hu, hq, hv⟩ := a6 hs
      rw [hu]
      exact (vibUnit_short r _ c hc N hN).1.1
  · by_cases hs : Special r
    · rw [(a5 hs).2]; simp
    · obtain ⟨N, hN, hu, hq, hv⟩ := a6 hs
      rw [hq]
      exact (vibUnit_short r _ c hc N hN).2.1
  · intro s k hv
    rcases Meaning.kinds (meaning r) with ⟨x, hx, _⟩ | ⟨t, htx, _⟩ | ⟨hx, _⟩
    · by_cases hs : Special r
      · rw [special_raw hs] at hx; cases hx
      · obtain ⟨N, hN, hu, hq, hv'⟩ := a6 hs
        rw [hv' (d1 x hx).2.1] at hv
        cases hv
    · obtain ⟨_, s', hs', hcs⟩ := d2 t htx
      rw [a7 s' hs'] at hv
      injection hv with hv
      subst hv
      exact cstr_zero hcs
    · have := hiff.mpr (.inl hx)
      rw [this] at hm
      cases hm

theorem normalised_ready {r : Record} (hr : Delivered r) (hst : StorageOk r) (junk : Nat → Byte) :
    ∃ n leak, parseVariableRecord junk r = .ok (n, leak) ∧ ∀ m, n = some m → Terse m → NReady m := by
  obtain ⟨n, leak, h1, h2⟩ := normalised_fit hr hst junk
  exact ⟨n, leak, h1, fun m hm ht => ⟨h2 m hm, ht⟩⟩

/-- C79, restricted to records whose normalised texts are not too long together (`Terse`) and, as in C33, whose storage number
fits: `mbus_frame_data_xml_normalized` never writes outside its buffer and returns the complete document, with one element per record,
in order, holding the normalised record - whatever the number of records and whatever the memory contained before. -/
theorem C79_partial (junk0 : Nat → Byte) (junk : Nat → Nat → Byte) (x : FrameData) (hx : x.type = DATA_VARIABLE) (hc : x.var.records.length < 2 ^ 31)
    (hd : ∀ r ∈ x.var.records, Delivered r ∧ StorageOk r)
    (ht : ∀ r ∈ x.var.records, ∀ j n leak, parseVariableRecord j r = .ok (some n, leak) → Terse n) :
    ∃ m p ns, frameDataXmlNormalized junk0 junk x = .ok (some m) ∧ productName x.var.header = .ok p ∧
      Pointwise (fun r n => ∃ j leak, parseVariableRecord j r = .ok (n, leak)) x.var.records ns ∧
      document (slaveGroup x.var.header p (mediumLookup x.var.header.medium) :: ns.zipIdx.map fun p => normGroup p.2 p.1) ++ [0] <+: m := by
  obtain ⟨p, hp, _⟩ := productName_plain x.var.header
  obtain ⟨m, h1, ns, h2, h3⟩ := variableXmlNormalized_runs junk0 junk x.var p hp hc (by
    intro r hr j
    obtain ⟨n, leak, h1, h2⟩ := normalised_ready (hd r hr).1 (hd r hr).2 j
    exact ⟨n, leak, h1, fun m hm => h2 m hm (ht r hr j m leak (by rw [h1, hm]))⟩)
  refine ⟨m, p, ns, ?_, hp, h2, h3⟩
  unfold frameDataXmlNormalized
  rw [hx, if_neg (by decide), if_pos rfl, h1]
  rfl

/-- For error telegrams (and unknown types) there is no normalised XML; fixed data are printed as by `mbus_data_fixed_xml`. -/
theorem C79_other_types (junk0 : Nat → Byte) (junk : Nat → Nat → Byte) (x : FrameData) :
    (x.type = DATA_FIXED → frameDataXmlNormalized junk0 junk x = fixedXml junk0 x.fix >>= fun m => .ok (some m)) ∧
    (x.type ≠ DATA_FIXED → x.type ≠ DATA_VARIABLE → frameDataXmlNormalized junk0 junk x = .ok none) := by
  unfold frameDataXmlNormalized
  refine ⟨fun h => by rw [if_pos h], fun h1 h2 => by rw [if_neg h1, if_neg h2]⟩

/-- Hypotheses of C79_partial and its result for a telegram with one volume record. -/
example (junk0 : Nat → Byte) (junk : Nat → Nat → Byte) (x : FrameData) (hx : x.type = DATA_VARIABLE) (hr : x.var.records = [volumeItem.1]) :
    ∃ m p ns, frameDataXmlNormalized junk0 junk x = .ok (some m) ∧ productName x.var.header = .ok p ∧
      Pointwise (fun r n => ∃ j leak, parseVariableRecord j r = .ok (n, leak)) x.var.records ns ∧
      document (slaveGroup x.var.header p (mediumLookup x.var.header.medium) :: ns.zipIdx.map fun p => normGroup p.2 p.1) ++ [0] <+: m := by
  have hd : Delivered volumeItem.1 := volume_reads.delivered _ (by simp)
  have hs : StorageOk volumeItem.1 := ⟨by decide, by decide +kernel⟩
  refine C79_partial junk0 junk x hx (by rw [hr]; decide) ?_ ?_
  · intro r h
    rw [hr] at h
    rw [List.mem_singleton.mp h]
    exact ⟨hd, hs⟩
  · intro r h j n leak hp
    rw [hr] at h
    rw [List.mem_singleton.mp h] at hp
    refine C79_plain_partial j _ n leak hd hs hp (.inr ⟨?_, ?_⟩)
    · have : parseVariableRecord j volumeItem.1 = .ok (some ⟨.num ((Flt.lit 5).mul (.lit (1/1000))), some (cs! "m^3"), cs! "Instantaneous value", some (cs! "Volume"), -1, -1, 0⟩, none) := by
        rfl
      rw [this] at hp
      injection hp with hp
      injection hp with hp
      injection hp with hp
      rw [← hp]
      decide
    · intro t ht
      cases ht

/-! The overflow witness. -/

/-- The XML of a list of normalised records. -/
def normDoc (start : Nat) (ns : List (Option NRecord)) : List Byte := ((ns.zipIdx start).map fun p => normGroup p.2 p.1).flatMap Group.render

theorem normDoc_cons (start : Nat) (n : Option NRecord) (ns : List (Option NRecord)) :
    normDoc start (n :: ns) = (normGroup start n).render ++ normDoc (start + 1) ns := by
  simp [normDoc, List.zipIdx_cons]

theorem nrecords_small (junk : Nat → Nat → Byte) (ps : List (Record × Option NRecord)) (rest : List Record)
    (h : ∀ p ∈ ps, (∀ j, ∃ leak, parseVariableRecord j p.1 = .ok (p.2, leak)) ∧ ∀ m, p.2 = some m → NReady m)
    (start : Nat) (hc : start + ps.length < 2 ^ 31) (e : List Byte) (he : e.length = 768) (b : XBuf) (t : List Byte) (hb : Text b 8192 t)
    (hl : t.length + (normDoc start (ps.map (·.2))).length ≤ 7168) :
    ∃ e' b', nrecordsXml junk (ps.map (·.1) ++ rest) start e b = nrecordsXml junk rest (start + ps.length) e' b' ∧ e'.length = 768 ∧
      Text b' 8192 (t ++ normDoc start (ps.map (·.2))) := by
  induction ps generalizing start e b t with
  | nil => exact ⟨e, b, rfl, he, by simpa [normDoc] using hb⟩
  | cons p ps ih =>
    obtain ⟨h1, h2⟩ := h p (List.mem_cons_self ..)
    obtain ⟨leak, h3⟩ := h1 (junk start)
    rw [List.map_cons, normDoc_cons, List.length_append] at hl
    have hc' : start + 1 + ps.length < 2 ^ 31 := by simp at hc; omega
    have hg : ∀ j, b.grow j = b := by
      intro j
      unfold XBuf.grow
      rw [if_neg]
      obtain ⟨h1, h2, _⟩ := hb
      omega
    obtain ⟨⟨b1, e1⟩, g1, g2, g3, _⟩ := nrecord_runs hb e he p.2 h2 start (by omega) (by omega)
    dsimp only at g2 g3
    obtain ⟨e', b', k1, k2, k3⟩ := ih (fun q hq => h q (List.mem_cons_of_mem _ hq)) (start + 1) hc' e1 g2 b1 _ g3
      (by rw [List.length_append]; omega)
    refine ⟨e', b', ?_, k2, ?_⟩
    · rw [List.map_cons, List.cons_append]
      simp only [nrecordsXml]
      rw [h3, ok_bind]
      dsimp only
      rw [hg, g1, ok_bind]
      dsimp only
      rw [k1]
      congr 1
      simp
      omega
    · rw [List.map_cons, normDoc_cons, ← List.append_assoc]
      exact k3

/-- A record whose value does not fit: the tag closing the record is written behind the buffer. -/
theorem nrecord_overflow {b : XBuf} {t : List Byte} (hb : Text b 8192 t) (e : List Byte) (he : e.length = 768) (n : NRecord) (i : Nat) (hi : i < 100)
    (s : List Byte) (k : Int) (hs : n.value = .str s k) (h0 : (0 : Byte) ∈ s) (hlong : 762 ≤ (escape (upToNul s)).length)
    (hf : (0 : Byte) ∉ n.function ∧ (escape n.function).length ≤ 24) (hst : (fmtInt n.storage).length ≤ 11) (hta : n.tariff = -1)
    (hu : (0 : Byte) ∉ n.unit.getD [] ∧ (escape (n.unit.getD [])).length ≤ 40)
    (hq : (0 : Byte) ∉ n.quantity.getD [] ∧ (escape (n.quantity.getD [])).length = 270)
    (h1 : t.length + 600 < 8192) (h2 : 8192 < t.length + 1200 + (escape n.function).length) :
    ∃ j, nrecordXml (some n) i e b = .error (.oobWrite 8192 j) := by
  have e1 : ∀ x, cs! "        <Function>" ++ x ++ cs! "</Function>\n" = leaf (cs! "Function", x) := fun x => by simp [leaf]
  have e2 : ∀ x, cs! "        <StorageNumber>" ++ x ++ cs! "</StorageNumber>\n" = leaf (cs! "StorageNumber", x) := fun x => by simp [leaf]
  have e3 : ∀ x, cs! "        <Unit>" ++ x ++ cs! "</Unit>\n" = leaf (cs! "Unit", x) := fun x => by simp [leaf]
  have e4 : ∀ x, cs! "        <Quantity>" ++ x ++ cs! "</Quantity>\n" = leaf (cs! "Quantity", x) := fun x => by simp [leaf]
  have e5 : ∀ x, cs! "        <Value>" ++ x ++ cs! "</Value>\n" = leaf (cs! "Value", x) := fun x => by simp [leaf]
  have hd := decDigits_31 i (by omega)
  obtain ⟨b0, p0, hb0⟩ := put_runs hb.holds (cs! "    <DataRecord id=\"" ++ decDigits i ++ cs! "\">\n") (by simp; omega)
  have hr : Runs (nfieldsXml e b0 (some n)) (fun p => p.1.mem.length = 8192 ∧ 8192 < p.1.len) := by
    unfold nfieldsXml
    simp only [e1, e2, e3, e4]
    refine (encode_le he hf.1 (by omega)).bind fun q hq' => ?_
    obtain ⟨a1, t1⟩ := q
    obtain ⟨l1, rfl⟩ := hq'
    refine put_bind hb0.holds _ (by simp [leaf_length]; omega) fun b1 x1 => ?_
    refine put_bind x1.holds _ (by simp [leaf_length]; omega) fun b2 x2 => ?_
    have : ntariffXml b2 n = .ok b2 := by
      unfold ntariffXml
      rw [hta, if_neg (by decide)]
    rw [this, ok_bind]
    refine (encodeOpt_le l1 n.unit hu.1 (by omega)).bind fun q hq' => ?_
    obtain ⟨a2, t2⟩ := q
    obtain ⟨l2, rfl⟩ := hq'
    refine put_bind x2.holds _ (by simp [leaf_length]; omega) fun b3 x3 => ?_
    refine (encodeOpt_le l2 n.quantity hq.1 (by omega)).bind fun q hq' => ?_
    obtain ⟨a3, t3⟩ := q
    obtain ⟨l3, rfl⟩ := hq'
    refine put_bind x3.holds _ (by simp [leaf_length]; omega) fun b4 x4 => ?_
    rw [hs]
    simp only [nvalueXml, e5]
    rw [cstr_mem s h0, ok_bind]
    obtain ⟨⟨a5, t5⟩, p5, l5, hk⟩ := encodeInto_any a3 (upToNul s) (by dsimp only at l3; omega) (upToNul_nonul s)
    rw [p5, ok_bind]
    dsimp only at l5 hk l3 ⊢
    rw [l3] at hk
    have h5 : 762 ≤ t5.length := by
      obtain ⟨k, k1, k2, k3, k4, k5⟩ := hk
      exact EscapedCut.long ⟨k, k1, k2, k3, (fun h => by have := k4 h; omega), (fun j hj => by have := k5 j hj; omega)⟩ hlong
    obtain ⟨b6, p6, m6, n6⟩ := put_long x4 (leaf (cs! "Value", t5)) (by simp [leaf_length]; omega)
    rw [p6, ok_bind]
    refine .ok ⟨m6, ?_⟩
    dsimp only
    rw [n6]
    simp [leaf_length]
    omega
  obtain ⟨⟨b7, e7⟩, p7, m7, n7⟩ := hr
  dsimp only at m7 n7
  refine ⟨b7.len, ?_⟩
  unfold nrecordXml
  rw [p0, ok_bind, p7, ok_bind]
  dsimp only
  have : ∀ z, b7.put z = .error (.oobWrite 8192 b7.len) := by
    intro z
    unfold XBuf.put
    rw [if_pos (by omega), m7]
  rw [this]
  rfl

/-- A telegram with 29 records without data followed by `quoteRec`. -/
def normOverflowTelegram : Frame := rsp 0x72 (hdr ++ ((List.replicate 29 [0x00, 0x5A]).flatten ++ quoteRec.encode))

theorem normOverflow_reads : Reads normOverflowTelegram hdrHeader (List.replicate 29 (mkRec flowRec) ++ [mkRec quoteRec]) := by
  have := reads_rsp ((List.replicate 29 [0x00, 0x5A]).flatten ++ quoteRec.encode) (by decide +kernel)
    (List.replicate 29 flowRec ++ [quoteRec]) (flow_tiles 29 (by
      have := Tiles.cons quote_legal .nil
      rwa [List.append_nil] at this))
  rwa [List.map_append, List.map_replicate] at this

def flowNorm : NRecord := ⟨.str [0] 0, some [194, 176, 67], cs! "Instantaneous value", some (cs! "Flow temperature"), -1, -1, 0⟩

theorem flow_normalised (j : Nat → Byte) : parseVariableRecord j (mkRec flowRec) = .ok (some flowNorm, none) := by rfl

theorem flowNorm_ready : NReady flowNorm where
  function := by decide +kernel
  storage := fmtInt_length _ (by decide)
  tariff := fmtInt_length _ (by decide)
  device := fmtInt_length _ (by decide)
  unit := by decide
  quantity := by decide
  value := by intro s k h; injection h with h; rw [← h]; decide
  terse := by unfold Terse; decide +kernel

set_option maxRecDepth 8000 in
theorem flowNorm_length (id : Nat) (h : id < 100) : 228 ≤ (normGroup id (some flowNorm)).render.length ∧ (normGroup id (some flowNorm)).render.length ≤ 229 := by
  have h1 : (dec id).length ≤ 2 := decDigits_length id 2 (by omega) (by omega)
  have h2 : 1 ≤ (dec id).length := by
    unfold dec decDigits
    split <;> simp
  have h3 : normGroup id (some flowNorm) =
      { name := cs! "DataRecord", attrs := [(cs! "id", dec id)],
        leaves := [(cs! "Function", cs! "Instantaneous value"), (cs! "StorageNumber", cs! "0"), (cs! "Unit", [194, 176, 67]), (cs! "Quantity", cs! "Flow temperature"), (cs! "Value", [])] } := by
    have e1 : fmtInt 0 = cs! "0" := by simp [fmtInt, decDigits]
    rw [← e1]
    rfl
  rw [h3]
  generalize dec id = d at *
  simp [Group.render, leaf, attr]
  omega

theorem flowNorm_lengths (n start : Nat) (h : start + n ≤ 100) : 228 * n ≤ (normDoc start (List.replicate n (some flowNorm))).length ∧
    (normDoc start (List.replicate n (some flowNorm))).length ≤ 229 * n := by
  induction n generalizing start with
  | zero => simp [normDoc]
  | succ n ih =>
    rw [List.replicate_succ, normDoc_cons, List.length_append]
    have h1 := flowNorm_length start (by omega)
    have h2 := ih (start + 1) (by omega)
    omega

theorem quote_normalised (j : Nat → Byte) : ∃ n leak s k, parseVariableRecord j (mkRec quoteRec) = .ok (some n, leak) ∧ n.value = .str s k ∧
    (0 : Byte) ∈ s ∧ 762 ≤ (escape (upToNul s)).length ∧ n.function = cs! "Instantaneous value" ∧ n.storage = 0 ∧ n.tariff = -1 ∧
    n.unit = some (cs! "-") ∧ n.quantity = some (List.replicate 45 34) := by
  have hr : Delivered (mkRec quoteRec) := normOverflow_reads.delivered _ (by simp)
  have hst : StorageOk (mkRec quoteRec) := ⟨by decide, by decide +kernel⟩
  obtain ⟨o, res, leak, ho, hd, _, hres, hiff, _, hall⟩ := parseVariableRecord_eq hr hst j
  have hm : (meaning (mkRec quoteRec)).words = some (List.replicate 127 34) := by decide +kernel
  have hsp : ¬ Special (mkRec quoteRec) := by decide
  have hN : ∀ x, vibUnitNormalize (mkRec quoteRec) x = .ok (some ⟨0, cs! "-", x, List.replicate 45 34⟩) := by
    intro x
    have : cstr (mkRec quoteRec).customVif.bytes = .ok (List.replicate 45 34) := by decide +kernel
    have h1 : (mkRec quoteRec).vif = 0x7C := rfl
    unfold vibUnitNormalize
    rw [rd0, ok_bind, h1, if_neg (by decide), if_neg (by decide), if_pos (.inl rfl), this]
    rfl
  cases res with
  | none =>
    exfalso
    rcases hiff.mp rfl with h | ⟨_, h⟩
    · rw [h] at hm; cases hm
    · obtain ⟨n, e1, e2⟩ := normalize_delivered hr hsp (.lit 0)
      rw [hN] at e1
      injection e1 with e1
      injection e1 with e1
      exact e2.mpr h (by rw [← e1])
  | some n =>
    obtain ⟨a1, a2, a3, a4, _, a6, a7⟩ := hall n rfl
    obtain ⟨_, s, hs, hcs⟩ := (decoded_split hd).2.1 _ hm
    obtain ⟨N, hN', hu, hq, _⟩ := a6 hsp
    rw [hN] at hN'
    injection hN' with hN'
    injection hN' with hN'
    rw [← hN'] at hu hq
    have h0 := cstr_zero hcs
    rw [cstr_mem s h0] at hcs
    injection hcs with hcs
    refine ⟨n, leak, s, o.size, hres, a7 s hs, h0, ?_, ?_, ?_, ?_, hu, hq⟩
    · rw [hcs, escape_quotes]; decide
    · rw [a4]; decide +kernel
    · rw [a1]; decide +kernel
    · rw [a2]; rfl

set_option maxRecDepth 8000 in
/-- C79 is false: the normalised XML of this telegram is written beyond the end of the 8192-byte buffer, whatever the memory contained. -/
theorem C79_overflow_violation (junk0 : Nat → Byte) (junk : Nat → Nat → Byte) :
    ∃ x, frameDataParse normOverflowTelegram FrameData.new = .ok (0, x) ∧
      ∃ i, frameDataXmlNormalized junk0 junk x = .error (.oobWrite 8192 i) := by
  obtain ⟨_, x, hp, ht, hh, hrs⟩ := normOverflow_reads
  refine ⟨x, hp, ?_⟩
  have hb := flowNorm_lengths 29 0 (by decide)
  obtain ⟨p', hp', h1, h2, h3⟩ := headerXml_runs junk0 hdrHeader
  rw [hdr_product] at hp'
  injection hp' with hp'
  subst hp'
  have hl := hdr_length
  obtain ⟨b1, e1, hb1⟩ := put_runs (holds_new (scratch junk0 3) 8192) XML_PI (by simp [XML_PI])
  obtain ⟨b2, e2, hb2⟩ := put_runs hb1.holds (cs! "<MBusData>\n\n") (by simp [XML_PI])
  obtain ⟨b3, e3, hb3⟩ := put_runs hb2.holds (slaveGroup hdrHeader [] (mediumLookup hdrHeader.medium)).render (by simp [XML_PI]; omega)
  have hlen : ([] ++ XML_PI ++ cs! "<MBusData>\n\n" ++ (slaveGroup hdrHeader [] (mediumLookup hdrHeader.medium)).render).length = 371 := by
    rw [List.length_append, hl]
    rfl
  have hm : (List.replicate 29 (mkRec flowRec, some flowNorm)).map (·.2) = List.replicate 29 (some flowNorm) := by rw [List.map_replicate]
  obtain ⟨e', b', k1, k2, k3⟩ := nrecords_small junk (List.replicate 29 (mkRec flowRec, some flowNorm)) [mkRec quoteRec]
    (by
      intro p hp
      rw [(List.mem_replicate.mp hp).2]
      refine ⟨fun j => ⟨none, flow_normalised j⟩, ?_⟩
      intro m hm
      injection hm with hm
      subst hm
      exact flowNorm_ready)
    0 (by rw [List.length_replicate]; decide) (List.replicate 768 0) List.length_replicate b3 _ hb3 (by rw [hm, hlen]; omega)
  rw [hm] at k3
  obtain ⟨n, leak, s, k, q1, q2, q3, q4, q5, q6, q7, q8, q9⟩ := quote_normalised (junk (0 + (List.replicate 29 (mkRec flowRec, some flowNorm)).length))
  obtain ⟨i, hi⟩ := nrecord_overflow k3 e' k2 n (0 + (List.replicate 29 (mkRec flowRec, some flowNorm)).length) (by rw [List.length_replicate]; decide) s k q2 q3 q4
    (by rw [q5]; decide +kernel) (by rw [q6]; exact fmtInt_length _ (by decide)) q7 (by rw [q8]; decide +kernel)
    (by
      rw [q9]
      refine ⟨?_, escape_quotes 45⟩
      intro h
      exact absurd (List.mem_replicate.mp h).2 (by decide))
    (by rw [List.length_append, hlen]; omega)
    (by
      rw [List.length_append, hlen, q5]
      have : (escape (cs! "Instantaneous value")).length = 19 := by decide +kernel
      omega)
  refine ⟨i, ?_⟩
  unfold frameDataXmlNormalized variableXmlNormalized
  dsimp only
  rw [ht, if_neg (by decide), if_pos rfl, hh, hrs, e1, ok_bind, e2, ok_bind, h1, ok_bind, e3, ok_bind]
  rw [List.map_replicate] at k1
  dsimp only at k1
  rw [k1]
  simp only [nrecordsXml]
  rw [q1, ok_bind]
  dsimp only
  have hg : ∀ j, b'.grow j = b' := by
    intro j
    unfold XBuf.grow
    rw [if_neg]
    obtain ⟨g1, g2, _⟩ := k3
    rw [List.length_append, hlen] at g2
    omega
  rw [hg, hi]
  rfl

end Mbus
