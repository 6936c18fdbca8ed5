import Verif.Lemmas.Rel
import Verif.Props.XmlNorm
/-
Properties C106 (accuracy of normalised values in `double` arithmetic) and C107 (their decimal texts).
-/
namespace Mbus
open Spec

/-! ### the arithmetic -/

/-- C106: constants, conversions, products and sums are the `double` nearest to the exact result: no `double` is nearer. -/
theorem C106_nearest (x y : Flt) (a b q : Rat) (hx : valueOf x = some a) (hy : valueOf y = some b) :
    (∃ z, valueOf (.lit q) = some z ∧ IsDouble z ∧ ∀ w, IsDouble w → mag (z - q) ≤ mag (w - q)) ∧
    (∃ z, valueOf (x.mul y) = some z ∧ IsDouble z ∧ ∀ w, IsDouble w → mag (z - a * b) ≤ mag (w - a * b)) ∧
    (∃ z, valueOf (x.add y) = some z ∧ IsDouble z ∧ ∀ w, IsDouble w → mag (z - (a + b)) ≤ mag (w - (a + b))) := by
  have key : ∀ q w, IsDouble w → mag (dbl q - q) ≤ mag (w - q) := by
    intro q w hw
    obtain ⟨h1, h2⟩ := dbl_nearest q w hw
    rcases mag_eq (dbl q - q) with ⟨_, e⟩ | ⟨_, e⟩ <;> rw [e] <;> grind
  exact ⟨⟨_, valueOf_lit q, dbl_double _, key q⟩, ⟨_, valueOf_mul hx hy, dbl_double _, key _⟩, ⟨_, valueOf_add hx hy, dbl_double _, key _⟩⟩

/-- C106: ties go to the `double` whose last bit is 0. -/
theorem C106_ties (x y : Flt) (a b q : Rat) (hx : valueOf x = some a) (hy : valueOf y = some b) :
    (∀ z w, valueOf (.lit q) = some z → IsDouble w → w ≠ z → mag (w - q) = mag (z - q) → EvenDouble z) ∧
    (∀ z w, valueOf (x.mul y) = some z → IsDouble w → w ≠ z → mag (w - a * b) = mag (z - a * b) → EvenDouble z) ∧
    (∀ z w, valueOf (x.add y) = some z → IsDouble w → w ≠ z → mag (w - (a + b)) = mag (z - (a + b)) → EvenDouble z) := by
  refine ⟨fun z w h hw => ?_, fun z w h hw => ?_, fun z w h hw => ?_⟩
  · rw [valueOf_lit] at h; injection h with h; subst h; exact dbl_tie _ _ hw
  · rw [valueOf_mul hx hy] at h; injection h with h; subst h; exact dbl_tie _ _ hw
  · rw [valueOf_add hx hy] at h; injection h with h; subst h; exact dbl_tie _ _ hw

/-- The value with its sign. -/
def signed (neg : Bool) (m : Rat) : Rat := if neg then -m else m

/-- C106: signs.  A product is negative iff the signs differ, even if it is zero; a sum is negative iff the exact sum is, or it is zero and both operands are
negative zeros (or zero by cancellation never). -/
theorem C106_signs (a b : Bool) (m k : Rat) :
    (∃ z, (Flt.fin a m).mul (.fin b k) = .fin (a != b) z) ∧
    (∃ s z, (Flt.fin a m).add (.fin b k) = .fin s z ∧ (s = true ↔ signed a m + signed b k < 0 ∨ (signed a m + signed b k = 0 ∧ a = true ∧ b = true))) := by
  refine ⟨⟨_, rfl⟩, ?_⟩
  unfold Flt.add
  dsimp only
  rw [show (if a = true then -m else m) = signed a m from rfl, show (if b = true then -k else k) = signed b k from rfl]
  by_cases h : signed a m + signed b k = 0
  · rw [if_pos h]
    refine ⟨_, _, rfl, ?_⟩
    rw [h]
    cases a <;> cases b <;> simp
  · rw [if_neg h]
    refine ⟨_, _, rfl, ?_⟩
    simp [h]

/-- C106: infinities and values that are not numbers stay what they are under the corrections the library applies (constants that are not zero). -/
theorem C106_special (a b : Bool) (m : Rat) (hm : m ≠ 0) (y : Flt) :
    (Flt.inf a).mul (.fin b m) = .inf (a != b) ∧ (Flt.inf a).add (.fin b m) = .inf a ∧ (Flt.nan a).mul y = .nan a ∧ (Flt.nan a).add y = .nan a :=
  ⟨if_neg hm, rfl, rfl, rfl⟩

/-- 2^53 + 1 lies in the middle of the `double`s 2^53 and 2^53 + 2. -/
example : valueOf (.lit (2 ^ 53 + 1)) = some (2 ^ 53 : Rat) ∧ IsDouble (2 ^ 53 + 2) ∧
    mag ((2 ^ 53 + 2 : Rat) - (2 ^ 53 + 1)) = mag ((2 ^ 53 : Rat) - (2 ^ 53 + 1)) :=
  ⟨by decide +kernel, ⟨2 ^ 52 + 1, 1, by decide +kernel, by decide +kernel⟩, by decide +kernel⟩

/-! ### normalised records -/

theorem firstVife_eq (r : Record) : vife0 r % 128 = firstVife r := by
  unfold vife0 firstVife
  have h : r.vife.bytes ≠ [] := by
    intro h
    have := r.vife.length_bytes
    rw [h] at this
    cases this
  have e : r.vife.bytes.headD 0 = r.vife.bytes[0]'(by simp) := by
    rw [List.headD_eq_head?_getD, List.head?_eq_getElem?, List.getElem?_eq_getElem (by simp)]
    rfl
  rw [e]

/-- A whole number or finite real is converted with at most one rounding. -/
theorem exact_number (m : Meaning) (q : Rat) (h : m.exact = some q) : ∃ x a, m.number = some x ∧ valueOf x = some a ∧ Rel halfUlp q a := by
  cases m with
  | int v => injection h with h; subst h; exact ⟨_, _, rfl, valueOf_lit _, rel_dbl _⟩
  | bcd ds => injection h with h; subst h; exact ⟨_, _, rfl, valueOf_lit _, rel_dbl _⟩
  | real x => exact ⟨x, q, rfl, h, (Rel.refl q).mono (by decide +kernel)⟩
  | _ => cases h

/-- The operations carried out on the number of a record with documented scale. -/
theorem normalize_value {r : Record} (hr : Delivered r) (hs : ¬ Special r) (code : Nat) (d : Rat × List Byte) (hc : scaleCode r = some code)
    (hd : docScale code = some d) (h : code ≠ 0x279) (x : Flt) :
    ∃ N, vibUnitNormalize r x = .ok (some N) ∧ N.code = 0 ∧
      N.value = (match correctionOf r with
        | .none => x.mul (.lit d.1)
        | .times k => (x.mul (.lit d.1)).mul (.lit ((10 : Rat) ^ k))
        | .plus k => (x.mul (.lit d.1)).add (.lit ((10 : Rat) ^ k))) := by
  obtain ⟨_, hv⟩ := hr.unit
  have hf : firstVife r < 128 := Nat.mod_lt _ (by decide)
  unfold scaleCode at hc
  by_cases hfd : r.vif = 0xFD
  · rw [if_pos hfd] at hc
    injection hc with hc
    subst hc
    obtain ⟨c0, cv, _⟩ := C37_scale_partial _ d hd (by omega) (by omega) h x
    refine ⟨_, (C39_extension r x (hv hs (by rw [hfd]; decide))).1 hfd, ?_, ?_⟩
    · rw [firstVife_eq, Nat.add_comm]; exact c0
    · rw [firstVife_eq, Nat.add_comm, cv]
      simp [correctionOf, hfd]
  rw [if_neg hfd] at hc
  by_cases hfb : r.vif = 0xFB
  · rw [if_pos hfb] at hc
    injection hc with hc
    subst hc
    obtain ⟨c0, cv, _⟩ := C37_scale_partial _ d hd (by omega) (by omega) h x
    refine ⟨_, (C39_extension r x (hv hs (by rw [hfb]; decide))).2 hfb, ?_, ?_⟩
    · rw [firstVife_eq, Nat.add_comm]; exact c0
    · rw [firstVife_eq, Nat.add_comm, cv]
      simp [correctionOf, hfb]
  rw [if_neg hfb] at hc
  by_cases h7 : r.vif = 0x7C ∨ r.vif = 0xFC
  · rw [if_pos h7] at hc; cases hc
  rw [if_neg h7] at hc
  injection hc with hc
  subst hc
  obtain ⟨c0, cv, _⟩ := C37_scale_partial _ d hd (by omega) (by omega) h x
  by_cases hx : r.vif.toNat < 0x80
  · refine ⟨_, C39_no_extension r x hx (fun h => h7 (.inl h)), c0, ?_⟩
    unfold plainVif
    rw [cv]
    simp [correctionOf, hx]
  have hE : ExtendedPrimary r := ⟨by omega, hfb, fun h => h7 (.inr h), hfd⟩
  have hcor : correctionOf r = (if 0x70 ≤ firstVife r ∧ firstVife r ≤ 0x77 then .times ((firstVife r : Int) - 0x70 - 6)
      else if 0x78 ≤ firstVife r ∧ firstVife r ≤ 0x7B then .plus ((firstVife r : Int) - 0x78 - 3)
      else if firstVife r = 0x7D then .times 3 else .none) := by
    unfold correctionOf
    simp [hx, hfb, hfd]
  rw [hcor]
  by_cases c1 : 0x70 ≤ firstVife r ∧ firstVife r ≤ 0x77
  · rw [if_pos c1]
    refine ⟨_, C39_multiplicative r x (firstVife r - 0x70) (by omega) hE c0 (by rw [firstVife_eq]; omega), c0, ?_⟩
    unfold plainVif
    dsimp only
    rw [cv, show ((firstVife r - 0x70 : Nat) : Int) - 6 = (firstVife r : Int) - 0x70 - 6 by omega]
  rw [if_neg c1]
  by_cases c2 : 0x78 ≤ firstVife r ∧ firstVife r ≤ 0x7B
  · rw [if_pos c2]
    refine ⟨_, C39_additive r x (firstVife r - 0x78) (by omega) hE c0 (by rw [firstVife_eq]; omega), c0, ?_⟩
    unfold plainVif
    dsimp only
    rw [cv, show ((firstVife r - 0x78 : Nat) : Int) - 3 = (firstVife r : Int) - 0x78 - 3 by omega]
  rw [if_neg c2]
  by_cases c3 : firstVife r = 0x7D
  · rw [if_pos c3]
    refine ⟨_, C39_thousand r x hE c0 (by rw [firstVife_eq]; exact c3), c0, ?_⟩
    unfold plainVif
    dsimp only
    rw [cv, show (10 : Rat) ^ (3 : Int) = 1000 by decide +kernel]
  · rw [if_neg c3]
    refine ⟨_, C39_other r x hE c0 (by rw [firstVife_eq]; omega), c0, ?_⟩
    unfold plainVif
    rw [cv]

theorem exact_ordinary {r : Record} {q : Rat} (hq : (meaning r).exact = some q) : ¬ Special r := by
  intro hs
  rw [special_raw hs] at hq
  cases hq

theorem scaled_known {r : Record} {code : Nat} {d : Rat × List Byte} (hc : scaleCode r = some code) (hd : docScale code = some d) : ¬ UnknownUnit r := by
  rintro (h | h) <;> rw [scaleCode, h] at hc <;> injection hc with hc <;> subst hc
  · exact absurd hd (by rw [show docScale ((0x7B : Byte).toNat % 128) = none by decide +kernel]; exact fun h => by cases h)
  · exact absurd hd (by rw [show docScale ((0x7D : Byte).toNat % 128) = none by decide +kernel]; exact fun h => by cases h)

/-- C106: the number delivered for a record is its physical value (number times documented factor, with the correction of the first
VIFE) up to a relative error of 6 * 2^-53.  (Code 0x279: see C37.) -/
theorem C106_accuracy (r : Record) (hr : Delivered r) (hst : StorageOk r) (junk : Nat → Byte) (q : Rat) (hq : (meaning r).exact = some q)
    (code : Nat) (d : Rat × List Byte) (hc : scaleCode r = some code) (hd : docScale code = some d) (h : code ≠ 0x279) :
    ∃ n y z, parseVariableRecord junk r = .ok (some n, none) ∧ n.value = .num y ∧ valueOf y = some z ∧ IsDouble z ∧
      Near (6 * halfUlp * physicalSize q d.1 (correctionOf r)) (physical q d.1 (correctionOf r)) z := by
  obtain ⟨x, a, hx, ha, hrel⟩ := exact_number _ q hq
  obtain ⟨n, N, hp, hN, _, hv, _⟩ := C69_number r hr hst junk x hx (scaled_known hc hd)
  obtain ⟨N', hN', _, hval⟩ := normalize_value hr (exact_ordinary hq) code d hc hd h x
  rw [hN] at hN'; injection hN' with hN'; injection hN' with hN'; subst hN'
  have h1 := valueOf_mul ha (valueOf_lit d.1)
  have r1 : Rel (4 * halfUlp) (q * d.1) (dbl (a * dbl d.1)) :=
    ((hrel.mul (rel_dbl d.1)).trans (rel_dbl _)).mono (by decide +kernel)
  refine ⟨n, N.value, ?_⟩
  cases hcor : correctionOf r with
  | none =>
    rw [hcor] at hval
    refine ⟨_, hp, hv, by rw [hval]; exact h1, dbl_double _, ?_⟩
    exact (r1.mono (by decide +kernel)).near
  | times k =>
    rw [hcor] at hval
    refine ⟨_, hp, hv, by rw [hval]; exact valueOf_mul h1 (valueOf_lit _), dbl_double _, ?_⟩
    have r2 := ((((hrel.mul (rel_dbl d.1)).trans (rel_dbl _)).mul (rel_dbl ((10 : Rat) ^ k))).trans (rel_dbl _)).mono (show _ ≤ 6 * halfUlp by decide +kernel)
    exact r2.near
  | plus k =>
    rw [hcor] at hval
    refine ⟨_, hp, hv, by rw [hval]; exact valueOf_add h1 (valueOf_lit _), dbl_double _, ?_⟩
    have hk : (0 : Rat) < (10 : Rat) ^ k := Rat.zpow_pos (by decide)
    have r2 := rel_add r1 (rel_dbl ((10 : Rat) ^ k)) (Rat.le_of_lt hk) (by decide +kernel)
    have hm : (4 * halfUlp + halfUlp + 4 * halfUlp * halfUlp) * (mag (q * d.1) + (10 : Rat) ^ k) ≤ 6 * halfUlp * (mag (q * d.1) + (10 : Rat) ^ k) :=
      Rat.mul_le_mul_of_nonneg_right (by decide +kernel) (by have := mag_nonneg (q * d.1); grind)
    exact ⟨Rat.le_trans r2.1 hm, Rat.le_trans r2.2 hm⟩

/-- C106: whole numbers of at most 53 bits are delivered exactly when the scale is 1. -/
theorem C106_whole_partial (r : Record) (hr : Delivered r) (hst : StorageOk r) (junk : Nat → Byte) (v : Int) (hv : (meaning r).whole = some v)
    (hb : v.natAbs ≤ 2 ^ 53) (code : Nat) (u : List Byte) (hc : scaleCode r = some code) (hd : docScale code = some (1, u))
    (hn : correctionOf r = .none) : ∃ n y, parseVariableRecord junk r = .ok (some n, none) ∧ n.value = .num y ∧ valueOf y = some (v : Rat) := by
  have hx : (meaning r).number = some (.lit (v : Rat)) ∧ (meaning r).exact = some (v : Rat) := by
    cases hm : meaning r with
    | int w => rw [hm] at hv; injection hv with hv; subst hv; exact ⟨rfl, rfl⟩
    | bcd ds => rw [hm] at hv; injection hv with hv; subst hv; exact ⟨rfl, rfl⟩
    | _ => rw [hm] at hv; cases hv
  have h279 : code ≠ 0x279 := by
    rintro rfl
    rw [show docScale 0x279 = some (1 / 100, cs! "W") by decide +kernel] at hd
    injection hd with hd
    injection hd with hd _
    exact absurd hd (by decide +kernel)
  obtain ⟨n, N, hp, hN, _, hv, _⟩ := C69_number r hr hst junk _ hx.1 (scaled_known hc hd)
  obtain ⟨N', hN', _, hval⟩ := normalize_value hr (exact_ordinary hx.2) code _ hc hd h279 (.lit (v : Rat))
  rw [hN] at hN'; injection hN' with hN'; injection hN' with hN'; subst hN'
  rw [hn] at hval
  refine ⟨n, N.value, hp, hv, ?_⟩
  rw [hval, valueOf_mul (valueOf_lit _) (valueOf_lit _), show dbl 1 = 1 by decide +kernel, Rat.mul_one, dbl_int v hb, dbl_int v hb]

/-- A 64-bit number 2^53 + 1 with VIF 0x78 (a plain number). -/
def bigItem : Frame := rsp 0x72 (hdr ++ [0x07, 0x78, 1, 0, 0, 0, 0, 0, 0x20, 0])

/-- C106 is false of the code for numbers of more than 53 bits: 2^53 + 1 is delivered as 2^53. -/
theorem C106_whole_violation : ∃ r v', variableParse bigItem VarData.zero = .ok (0, v') ∧ v'.records = [r] ∧
    (meaning r).whole = some (2 ^ 53 + 1) ∧ scaleCode r = some 0x78 ∧ docScale 0x78 = some (1, []) ∧ correctionOf r = .none ∧
    (match parseVariableRecord (fun _ => 0) r with
      | .ok (some n, none) => decide (n.value = .num (.fin false (2 ^ 53)))
      | _ => false) = true := by
  refine ⟨_, _, rfl, rfl, ?_⟩
  decide +kernel

/-! ### range -/

/-- A finite value is zero or has magnitude at least `k`. -/
def Above (k : Rat) (x : Flt) : Prop := ∀ neg m, x = .fin neg m → m = 0 ∨ k ≤ m

/-- The magnitude of a finite value is that of a `double`. -/
def Proper (x : Flt) : Prop := ∀ neg m, x = .fin neg m → IsDouble m

theorem Above.mono {k l : Rat} {x : Flt} (h : Above k x) (hl : l ≤ k) : Above l x :=
  fun neg m e => (h neg m e).imp id (fun h => Rat.le_trans hl h)

theorem dbl_above {x k : Rat} (hk : 0 < k) (h : k ≤ x) : k / 2 ≤ dbl x := by
  obtain ⟨n1, n2⟩ := dbl_near x
  have hm : mag x = x := if_neg (by grind)
  rw [hm] at n1 n2
  have hu : halfUlp * x ≤ (1 / 2) * x := Rat.mul_le_mul_of_nonneg_right (by decide +kernel) (by grind)
  grind

theorem above_mul {x : Flt} {a e f : Rat} (ha : 0 < a) (hf : 0 < f) (hx : Above a x) (hp : ∀ neg m, x = .fin neg m → 0 ≤ m) (he : e = 0 ∨ f ≤ e) :
    Above (a * f / 4) (x.mul (.lit e)) ∧ Proper (x.mul (.lit e)) := by
  have hl : ∃ g, Flt.lit e = .fin false g ∧ (g = 0 ∨ f / 2 ≤ g) := by
    rcases he with rfl | he
    · exact ⟨0, by decide +kernel, .inl rfl⟩
    · exact ⟨dbl e, lit_pos (by grind), .inr (dbl_above hf he)⟩
  obtain ⟨g, hg, hg2⟩ := hl
  rw [hg]
  cases x with
  | nan n => exact ⟨fun neg m h => by simp [Flt.mul] at h, fun neg m h => by simp [Flt.mul] at h⟩
  | inf n =>
    refine ⟨fun neg m h => ?_, fun neg m h => ?_⟩ <;> simp only [Flt.mul] at h <;> split at h <;> cases h
  | fin n q =>
    refine ⟨fun neg m h => ?_, fun neg m h => ?_⟩ <;> simp only [Flt.mul] at h <;> injection h with _ h <;> subst h
    · rcases hx n q rfl with h0 | h0
      · left; rw [h0, Rat.zero_mul, dbl_zero]
      · rcases hg2 with h1 | h1
        · left; rw [h1, Rat.mul_zero, dbl_zero]
        · right
          have h2 : a * (f / 2) ≤ q * g :=
            Rat.le_trans (Rat.mul_le_mul_of_nonneg_right h0 (by grind)) (Rat.mul_le_mul_of_nonneg_left h1 (hp n q rfl))
          have h3 := dbl_above (Rat.mul_pos ha (show 0 < f / 2 by grind)) h2
          grind
    · exact dbl_double _

theorem units_of_ge {y : Rat} {k : Int} (hy : IsDouble y) (h : (2 : Rat) ^ 52 * (2 : Rat) ^ k ≤ mag y) : ∃ n : Int, y = (n : Rat) * (2 : Rat) ^ k := by
  rcases mag_eq y with ⟨_, e⟩ | ⟨_, e⟩ <;> rw [e] at h
  · obtain ⟨m, j, hm, rfl⟩ := hy
    exact double_units m j k hm h
  · obtain ⟨m, j, hm, e2⟩ := isDouble_neg hy
    rw [e2] at h
    obtain ⟨n, hn⟩ := double_units m j k hm h
    refine ⟨-n, ?_⟩
    rw [Rat.intCast_neg, Rat.neg_mul, ← hn, ← e2, Rat.neg_neg]

/-- A sum of two `double`s, one of them not tiny, is 0 or not tiny. -/
theorem sum_above {a b : Rat} (ha : IsDouble a) (hb : IsDouble b) (h : 1 / 2048 ≤ b) : a + b = 0 ∨ 1 / 2 ^ 64 ≤ mag (a + b) := by
  have e64 : (2 : Rat) ^ (-64 : Int) = 1 / 2 ^ 64 := by decide +kernel
  have e12 : (2 : Rat) ^ 52 * (2 : Rat) ^ (-64 : Int) = 1 / 4096 := by decide +kernel
  by_cases hs : mag a < 1 / 4096
  · right
    have : mag (a + b) = a + b := if_neg (by rcases mag_eq a with ⟨_, e⟩ | ⟨_, e⟩ <;> grind)
    rw [this]
    have h6 : (1 : Rat) / 2 ^ 64 ≤ 1 / 4096 := by decide +kernel
    rcases mag_eq a with ⟨_, e⟩ | ⟨_, e⟩ <;> grind
  · obtain ⟨n, rfl⟩ := units_of_ge (k := -64) ha (by rw [e12]; grind)
    obtain ⟨m, rfl⟩ := units_of_ge (k := -64) hb (by
      rw [e12]
      rcases mag_eq b with ⟨_, e⟩ | ⟨_, e⟩ <;> grind)
    have e : (n : Rat) * (2 : Rat) ^ (-64 : Int) + (m : Rat) * (2 : Rat) ^ (-64 : Int) = ((n + m : Int) : Rat) * (2 : Rat) ^ (-64 : Int) := by
      rw [Rat.intCast_add, Rat.add_mul]
    rw [e, mag_mul (two_zpow_pos _)]
    by_cases h0 : n + m = 0
    · left; rw [h0]; decide +kernel
    · right
      have h1 : 1 ≤ mag ((n + m : Int) : Rat) := by
        unfold mag
        split
        · rename_i hlt
          have : n + m < 0 := by
            have := @Rat.intCast_lt_intCast (n + m) 0
            exact this.mp hlt
          have h2 : ((1 : Int) : Rat) ≤ ((-(n + m) : Int) : Rat) := Rat.intCast_le_intCast.mpr (by omega)
          rw [Rat.intCast_neg] at h2
          exact h2
        · rename_i hlt
          have : ¬ n + m < 0 := fun c => hlt (by
            have := @Rat.intCast_lt_intCast (n + m) 0
            exact this.mpr c)
          have h2 : ((1 : Int) : Rat) ≤ ((n + m : Int) : Rat) := Rat.intCast_le_intCast.mpr (by omega)
          exact h2
      have := Rat.mul_le_mul_of_nonneg_right h1 (Rat.le_of_lt (two_zpow_pos (-64)))
      rw [Rat.one_mul] at this
      rw [← e64]
      exact this

theorem above_add {x : Flt} {e : Rat} (hx : Proper x) (h1 : 1 / 1000 ≤ e) : Above (1 / 2 ^ 65) (x.add (.lit e)) := by
  have hb := dbl_above (k := 1 / 1000) (by decide +kernel) h1
  rw [lit_pos (by grind)]
  intro neg m h
  cases x with
  | nan n => simp [Flt.add] at h
  | inf n => simp [Flt.add] at h
  | fin n q =>
    have hq : IsDouble (if n = true then -q else q) := by
      cases n
      · exact hx _ _ rfl
      · exact isDouble_neg (hx _ _ rfl)
    simp only [Flt.add, Bool.false_eq_true, if_false] at h
    have hs := sum_above hq (dbl_double e) (by grind)
    generalize (if n = true then -q else q) + dbl e = s at h hs
    split at h
    · injection h with _ h; exact .inl h.symm
    · rename_i h0
      right
      injection h with _ h
      rw [← h]
      have h2 := hs.resolve_left h0
      have h3 : (if s < 0 then -s else s) = mag s := rfl
      rw [h3]
      have := dbl_above (by decide +kernel) h2
      exact Rat.le_trans (by decide +kernel) this

theorem ieee32_proper (w : Nat) (neg : Bool) (m : Rat) (h : ieee32 w = .fin neg m) : IsDouble m ∧ (m = 0 ∨ 1 / 2 ^ 149 ≤ m) := by
  unfold ieee32 at h
  simp only at h
  have hm : w % 2 ^ 23 < 2 ^ 23 := Nat.mod_lt _ (by decide)
  have he : w / 2 ^ 23 % 256 < 256 := Nat.mod_lt _ (by decide)
  generalize w % 2 ^ 23 = f at h hm
  generalize w / 2 ^ 23 % 256 = e at h he
  have d149 : ∀ q : Rat, q / 2 ^ 149 = q * (2 : Rat) ^ (-149 : Int) := by
    intro q
    rw [Rat.div_def, show ((2 : Rat) ^ 149)⁻¹ = (2 : Rat) ^ (-149 : Int) by decide +kernel]
  have e149 : (2 : Rat) ^ (-149 : Int) = 1 / 2 ^ 149 := by decide +kernel
  split at h
  · split at h <;> simp at h
  · split at h
    · injection h with _ h
      subst h
      refine ⟨⟨(f : Int), -149, by rw [Int.natAbs_natCast]; omega, by rw [d149, Rat.intCast_natCast]⟩, ?_⟩
      by_cases h0 : f = 0
      · left; subst h0; decide +kernel
      · right
        rw [d149 (f : Rat), ← e149]
        have h1 : (1 : Rat) ≤ (f : Rat) := by
          have : ((1 : Nat) : Rat) ≤ (f : Rat) := Rat.natCast_le_natCast.mpr (by omega)
          exact this
        have := Rat.mul_le_mul_of_nonneg_right h1 (Rat.le_of_lt (two_zpow_pos (-149)))
        rwa [Rat.one_mul] at this
    · rename_i h0
      injection h with _ h
      have e1 : ((2 ^ 23 + f : Nat) : Rat) * 2 ^ e / 2 ^ 150 = ((2 ^ 23 + f : Nat) : Rat) * (2 : Rat) ^ ((e : Int) - 150) := by
        rw [Rat.div_def, show ((2 : Rat) ^ 150)⁻¹ = (2 : Rat) ^ (-150 : Int) by decide +kernel, Rat.mul_assoc, ← Rat.zpow_natCast,
          ← Rat.zpow_add (by decide)]
        rfl
      rw [e1] at h
      subst h
      refine ⟨⟨((2 ^ 23 + f : Nat) : Int), (e : Int) - 150, by rw [Int.natAbs_natCast]; omega, by rw [Rat.intCast_natCast]⟩, .inr ?_⟩
      have h1 : (1 : Rat) ≤ ((2 ^ 23 + f : Nat) : Rat) := by
        have : ((1 : Nat) : Rat) ≤ ((2 ^ 23 + f : Nat) : Rat) := Rat.natCast_le_natCast.mpr (by omega)
        exact this
      have h2 : (2 : Rat) ^ (-149 : Int) ≤ (2 : Rat) ^ ((e : Int) - 150) := two_zpow_mono (by omega)
      have := Rat.mul_le_mul_of_nonneg_right h1 (Rat.le_of_lt (two_zpow_pos ((e : Int) - 150)))
      rw [Rat.one_mul] at this
      rw [← e149]
      exact Rat.le_trans h2 this

theorem lit_int_proper (z : Int) : Above (1 / 2) (.lit (z : Rat)) ∧ Proper (.lit (z : Rat)) := by
  refine ⟨fun neg m h => ?_, fun neg m h => ?_⟩ <;> unfold Flt.lit at h <;> injection h with _ h <;> subst h
  · by_cases h0 : z = 0
    · left; subst h0; decide +kernel
    · right
      have h1 : (1 : Rat) ≤ if (z : Rat) < 0 then -(z : Rat) else (z : Rat) := by
        have hz : (z : Rat) < 0 ↔ z < 0 := @Rat.intCast_lt_intCast z 0
        by_cases hn : z < 0
        · rw [if_pos (hz.mpr hn), ← Rat.intCast_neg]
          have : ((1 : Int) : Rat) ≤ ((-z : Int) : Rat) := Rat.intCast_le_intCast.mpr (by omega)
          exact this
        · rw [if_neg (fun c => hn (hz.mp c))]
          have : ((1 : Int) : Rat) ≤ (z : Rat) := Rat.intCast_le_intCast.mpr (by omega)
          exact this
      exact dbl_above (by decide) h1
  · exact dbl_double _

theorem number_proper (r : Record) (x : Flt) (hx : (meaning r).number = some x) : Above (1 / 2 ^ 149) x ∧ Proper x := by
  have hint : ∀ z : Int, Above (1 / 2 ^ 149) (.lit (z : Rat)) ∧ Proper (.lit (z : Rat)) := fun z =>
    ⟨(lit_int_proper z).1.mono (by decide +kernel), (lit_int_proper z).2⟩
  cases hm : meaning r with
  | int v => rw [hm] at hx; injection hx with hx; subst hx; exact hint v
  | bcd ds => rw [hm] at hx; injection hx with hx; subst hx; exact hint _
  | real y =>
    rw [hm] at hx
    injection hx with hx
    subst hx
    have : ∃ w, y = ieee32 w := by
      unfold meaning at hm
      dsimp only at hm
      split at hm <;> first
        | (injection hm with hm; exact ⟨_, hm.symm⟩)
        | cases hm
        | (split at hm <;> cases hm)
    obtain ⟨w, rfl⟩ := this
    exact ⟨fun neg m h => (ieee32_proper w neg m h).2, fun neg m h => (ieee32_proper w neg m h).1⟩
  | _ => rw [hm] at hx; cases hx

set_option maxRecDepth 100000 in
theorem vifTable_small : ∀ row ∈ vifTable, row.exponent = 0 ∨ 1 / 1000000000000 ≤ row.exponent := by decide +kernel

set_option maxRecDepth 100000 in
theorem fixedTable_small : ∀ row ∈ fixedTable, (row.exponent = 0 ∨ 1 / 1000000000000 ≤ row.exponent) ∧ 0 ≤ row.exponent ∧ row.exponent ≤ 1000000000000 := by
  decide +kernel

theorem correction_above (b : Byte) (x : Flt) {a : Rat} (ha : 0 < a) (ha2 : a ≤ 1) (hx : Above a x) (hp : ∀ neg m, x = .fin neg m → 0 ≤ m) (hd : Proper x) :
    Above (a / 2 ^ 70) (vifeCorrection b x) := by
  have p1 : ∀ b : Byte, 1 / 1000000 ≤ (10 : Rat) ^ (((b.toNat &&& 0x07 : Nat) : Int) - 6) := forall_byte (by decide +kernel)
  have p2 : ∀ b : Byte, 1 / 1000 ≤ (10 : Rat) ^ (((b.toNat &&& 0x03 : Nat) : Int) - 3) := forall_byte (by decide +kernel)
  have e70 : (2 : Rat) ^ 70 = 1180591620717411303424 := by decide +kernel
  have e65 : (2 : Rat) ^ 65 = 36893488147419103232 := by decide +kernel
  rw [e70]
  unfold vifeCorrection
  dsimp only
  split
  · exact (above_mul ha (f := 1 / 1000000) (by decide +kernel) hx hp (.inr (p1 b))).1.mono (by grind)
  · split
    · exact (above_add hd (p2 b)).mono (by rw [e65]; grind)
    · split
      · exact (above_mul ha (f := 1000) (by decide) hx hp (.inr (by decide))).1.mono (by grind)
      · exact hx.mono (by grind)

theorem inRange_of {x : Flt} {a k : Rat} (h : Above a x) (hb : Below k x) (ha : (2 : Rat) ^ (-300 : Int) ≤ a) (hk : k ≤ 2 ^ 300) : InRange x :=
  fun neg m e => (h neg m e).imp id fun h' => ⟨Rat.le_trans ha h', Rat.le_trans (hb neg m e).2 hk⟩

/-- C106: no overflow, no underflow: every number that occurs while a record is normalised (the decoded number, the number scaled with any
code, either of them corrected by any VIFE) is 0 or far inside the range of `double`. -/
theorem C106_range (r : Record) (x : Flt) (hx : (meaning r).number = some x) (z : Int) (b : Byte) :
    InRange x ∧ InRange (vifUnitNormalize z x).value ∧ InRange (vifeCorrection b x) ∧ InRange (vifeCorrection b (vifUnitNormalize z x).value) := by
  obtain ⟨ha, hd⟩ := number_proper r x hx
  have hb := number_below r x hx
  have hp : ∀ neg m, x = .fin neg m → 0 ≤ m := fun neg m e => (hb neg m e).1
  have hvb := (vifUnit_short z x).2.2 hb
  have hv : Above (1 / 2 ^ 149 * (1 / 1000000000000) / 4) (vifUnitNormalize z x).value ∧ Proper (vifUnitNormalize z x).value := by
    unfold vifUnitNormalize
    dsimp only
    cases h : vifTable.find? (fun r => r.vif == (z % 4096).toNat &&& 0xF7F) with
    | none =>
      dsimp only
      exact ⟨fun neg m h => by
        rw [show Flt.lit 0 = .fin false 0 by decide +kernel] at h; injection h with _ h; exact .inl h.symm,
        fun neg m h => by unfold Flt.lit at h; injection h with _ h; rw [← h]; exact dbl_double _⟩
    | some row =>
      exact above_mul (by decide +kernel) (by decide +kernel) ha hp (vifTable_small row (List.mem_of_find?_eq_some h))
  refine ⟨inRange_of ha hb (by decide +kernel) (by decide +kernel), inRange_of hv.1 hvb (by decide +kernel) (by decide +kernel), ?_, ?_⟩
  · exact inRange_of (correction_above b x (by decide +kernel) (by decide +kernel) ha hp hd) (correction_below b x (hb.mono (by decide +kernel)))
      (by decide +kernel) (by decide +kernel)
  · exact inRange_of (correction_above b _ (by decide +kernel) (by decide +kernel) hv.1 (fun neg m e => (hvb neg m e).1) hv.2) (correction_below b _ hvb)
      (by decide +kernel) (by decide +kernel)

theorem lit_int (v : Int) (h : v.natAbs ≤ 2 ^ 53) : Flt.lit (v : Rat) = .fin (decide (v < 0)) (v.natAbs : Rat) := by
  unfold Flt.lit
  have e : ((v : Rat) < 0) ↔ v < 0 := by
    have := @Rat.intCast_lt_intCast v 0
    simpa using this
  by_cases hv : v < 0
  · rw [if_pos (e.mpr hv)]
    have : -(v : Rat) = ((v.natAbs : Int) : Rat) := by rw [← Rat.intCast_neg]; congr 1; omega
    rw [this, dbl_int _ (by omega), Rat.intCast_natCast]
    simp [e]
  · rw [if_neg (fun c => hv (e.mp c))]
    have : (v : Rat) = ((v.natAbs : Int) : Rat) := by congr 1; omega
    rw [dbl_int _ h]
    rw [show decide ((v : Rat) < 0) = decide (v < 0) by simp [e], this, Rat.intCast_natCast]

/-- C106: the same for the counters of the fixed data structure. -/
theorem C106_fixed_range (u v : Int) (hv : v.natAbs ≤ 2 ^ 32) : InRange (Flt.lit (v : Rat)) ∧ InRange (fixedNormalize u v (.lit 0)).value := by
  have hl := lit_int v (by omega)
  have hb : Below (2 ^ 32) (Flt.lit (v : Rat)) := by
    intro neg m h
    rw [hl] at h
    injection h with _ h
    subst h
    refine ⟨Rat.natCast_nonneg, ?_⟩
    have : (v.natAbs : Rat) ≤ ((2 ^ 32 : Nat) : Rat) := Rat.natCast_le_natCast.mpr hv
    exact Rat.le_trans this (by decide +kernel)
  obtain ⟨ha, hd⟩ := lit_int_proper v
  have h0 : InRange (.lit 0) := fun neg m h => by
    rw [show Flt.lit 0 = .fin false 0 by decide +kernel] at h; injection h with _ h; exact .inl h.symm
  refine ⟨inRange_of ha hb (by decide +kernel) (by decide +kernel), ?_⟩
  unfold fixedNormalize
  dsimp only
  split
  · exact h0
  split
  · exact h0
  split
  · rename_i row h
    obtain ⟨h1, h2, h3⟩ := fixedTable_small row (List.mem_of_find?_eq_some h)
    exact inRange_of (above_mul (by decide +kernel) (by decide +kernel) ha (fun neg m e => (hb neg m e).1) h1).1 (below_mul (by decide +kernel) hb h2 h3)
      (by decide +kernel) (by decide +kernel)
  · exact h0

/-- C106: a counter of the fixed data structure is delivered as its physical value up to a relative error of 4 * 2^-53 (where label and
table agree, C38). -/
theorem C106_fixed_accuracy (status unit : Byte) (data : List Byte) (hl : 4 ≤ data.length) (d : Rat × List Byte) (h : unit.toNat % 64 ∉ fixedBad)
    (hd : readLabel (fixedUnit unit.toNat) = some d) :
    ∃ n y z, parseFixedRecord status unit data = .ok (some n) ∧ n.value = .num y ∧ valueOf y = some z ∧ IsDouble z ∧
      Near (4 * halfUlp * mag ((counterValue status data : Rat) * d.1)) ((counterValue status data : Rat) * d.1) z := by
  have hm : ((unit.toNat : Int) % 64).toNat = unit.toNat % 64 := by omega
  obtain ⟨_, c0, cv, cu⟩ := C38_agree_partial unit.toNat (counterValue status data) (.lit 0) _ (by rw [hm]; exact h) hd
  refine ⟨_, _, _, (C72_fixed status unit data hl).2 c0, rfl, by rw [cv]; exact valueOf_mul (valueOf_lit _) (valueOf_lit _), dbl_double _, ?_⟩
  exact ((((rel_dbl _).mul (rel_dbl d.1)).trans (rel_dbl _)).mono (by decide +kernel)).near

/-! ### C107: decimal texts -/

theorem roundEven_eq {x : Rat} {n : Nat} (h0 : 0 ≤ x) (h1 : x - (n : Rat) < 1 / 2) (h2 : (n : Rat) - x < 1 / 2) : roundEven x = n := by
  obtain ⟨a, b⟩ := roundEven_near x h0
  have c : (roundEven x : Rat) < ((n + 1 : Nat) : Rat) := by rw [Rat.natCast_add]; grind
  have d : (n : Rat) < ((roundEven x + 1 : Nat) : Rat) := by rw [Rat.natCast_add]; grind
  have := Rat.natCast_lt_natCast.mp c
  have := Rat.natCast_lt_natCast.mp d
  omega

/-- The magnitude of a scaled counter, printed with six decimals, is the exact decimal. -/
theorem scaled_micro (n : Nat) (k : Int) (hn : ExactDigits n k) (h1 : -6 ≤ k) (h2 : k ≤ 9) :
    roundEven (dbl ((n : Rat) * dbl ((10 : Rat) ^ k)) * 1000000) = n * 10 ^ (k + 6).toNat := by
  have hexact : (n : Rat) * (10 : Rat) ^ k * 1000000 = ((n * 10 ^ (k + 6).toNat : Nat) : Rat) := by
    have : (10 : Rat) ^ k * 1000000 = ((10 ^ (k + 6).toNat : Nat) : Rat) := by
      have hk : k = -6 ∨ k = -5 ∨ k = -4 ∨ k = -3 ∨ k = -2 ∨ k = -1 ∨ k = 0 ∨ k = 1 ∨ k = 2 ∨ k = 3 ∨ k = 4 ∨ k = 5 ∨ k = 6 ∨ k = 7 ∨ k = 8 ∨ k = 9 := by omega
      rcases hk with rfl | rfl | rfl | rfl | rfl | rfl | rfl | rfl | rfl | rfl | rfl | rfl | rfl | rfl | rfl | rfl <;> decide +kernel
    rw [Rat.mul_assoc, this, Rat.natCast_mul]
  have hn0 : (0 : Rat) ≤ (n : Rat) := Rat.natCast_nonneg
  have hp : (0 : Rat) < (10 : Rat) ^ k := Rat.zpow_pos (by decide)
  by_cases hk : 0 ≤ k
  · obtain ⟨j, rfl⟩ := Int.eq_ofNat_of_zero_le hk
    have hj : j ≤ 9 := by omega
    have e10 : (10 : Rat) ^ (j : Int) = ((10 ^ j : Nat) : Rat) := by rw [Rat.zpow_natCast, Rat.natCast_pow]; rfl
    have hj10 : 10 ^ j ≤ 10 ^ 9 := Nat.pow_le_pow_right (by decide) hj
    have d1 : dbl ((10 : Rat) ^ (j : Int)) = (10 : Rat) ^ (j : Int) := by
      rw [e10, ← Rat.intCast_natCast]
      exact dbl_int _ (by rw [Int.natAbs_natCast]; omega)
    have d2 : IsDouble ((n : Rat) * (10 : Rat) ^ (j : Int)) := by
      refine ⟨((n * 5 ^ j : Nat) : Int), (j : Int), ?_, ?_⟩
      · have := hn.1 hk
        rw [Int.natAbs_natCast] at this ⊢
        exact this
      · rw [e10, two_zpow_nat, Rat.intCast_natCast, ← Rat.natCast_mul, ← Rat.natCast_mul]
        congr 1
        rw [Nat.mul_assoc, ← Nat.mul_pow]
    rw [d1, dbl_exact d2, hexact]
    exact roundEven_eq Rat.natCast_nonneg (by grind) (by grind)
  · have r1 : Rel (3 * halfUlp) ((n : Rat) * (10 : Rat) ^ k) (dbl ((n : Rat) * dbl ((10 : Rat) ^ k))) :=
      (((Rel.refl (n : Rat)).mul (rel_dbl ((10 : Rat) ^ k))).trans (rel_dbl _)).mono (by decide +kernel)
    obtain ⟨a, b⟩ := r1.near
    have hs : 0 ≤ (n : Rat) * (10 : Rat) ^ k := Rat.mul_nonneg hn0 (Rat.le_of_lt hp)
    have hm : mag ((n : Rat) * (10 : Rat) ^ k) = (n : Rat) * (10 : Rat) ^ k := if_neg (by grind)
    rw [hm] at a b
    have hsize : (n : Rat) * (10 : Rat) ^ k * 1000000 ≤ 1500000000000000 := by
      rw [hexact]
      have hn := hn.2 (by omega)
      rw [Int.natAbs_natCast] at hn
      have h10 : 10 ^ (-k).toNat * 10 ^ (k + 6).toNat = 10 ^ 6 := by rw [← Nat.pow_add]; congr 1; omega
      have : n * 10 ^ (k + 6).toNat ≤ 1500000000 * 10 ^ (-k).toNat * 10 ^ (k + 6).toNat := Nat.mul_le_mul_right _ hn
      rw [Nat.mul_assoc, h10] at this
      exact Rat.le_trans (Rat.natCast_le_natCast.mpr this) (by decide +kernel)
    have hu : halfUlp = 1 / 9007199254740992 := by decide +kernel
    rw [hu] at a b
    generalize dbl ((n : Rat) * dbl ((10 : Rat) ^ k)) = D at *
    generalize (n : Rat) * (10 : Rat) ^ k = X at *
    refine roundEven_eq (by grind) ?_ ?_ <;> rw [← hexact] <;> grind

/-- every counter of at most 32 bits is such a number -/
theorem exactDigits_short (v k : Int) (hv : v.natAbs ≤ 2 ^ 32) (h2 : k ≤ 9) : ExactDigits v k := by
  constructor
  · intro _
    have h5 : 5 ^ k.toNat ≤ 5 ^ 9 := Nat.pow_le_pow_right (by decide) (by omega)
    have : v.natAbs * 5 ^ k.toNat ≤ 2 ^ 32 * 5 ^ 9 := Nat.mul_le_mul hv h5
    omega
  · intro hk
    have h10 : 10 ^ 1 ≤ 10 ^ (-k).toNat := Nat.pow_le_pow_right (by decide) (by omega)
    omega

theorem exactDigits_double {v k : Int} (hv : ExactDigits v k) (h1 : -6 ≤ k) : v.natAbs ≤ 2 ^ 53 := by
  by_cases hk : 0 ≤ k
  · have := hv.1 hk
    have h5 : 0 < 5 ^ k.toNat := Nat.pow_pos (by decide)
    have : v.natAbs * 1 ≤ v.natAbs * 5 ^ k.toNat := Nat.mul_le_mul_left _ h5
    omega
  · have := hv.2 (by omega)
    have h10 : 10 ^ (-k).toNat ≤ 10 ^ 6 := Nat.pow_le_pow_right (by decide) (by omega)
    omega

/-- Printing a scaled counter. -/
theorem scaled_text (v k : Int) (hv : ExactDigits v k) (h1 : -6 ≤ k) (h2 : k ≤ 9) :
    fmtF ((Flt.lit (v : Rat)).mul (.lit ((10 : Rat) ^ k))) = decimalText v k := by
  have hp : (0 : Rat) < (10 : Rat) ^ k := Rat.zpow_pos (by decide)
  have hn : ExactDigits (v.natAbs : Int) k := by unfold ExactDigits; rw [Int.natAbs_natCast]; exact hv
  rw [lit_int v (exactDigits_double hv h1), lit_pos hp]
  simp only [Flt.mul, fmtF, scaled_micro v.natAbs k hn h1 h2, decimalText]
  by_cases h : v < 0 <;> simp [h]

/-- The number stored for a whole number with a documented scale and no correction. -/
theorem whole_value (r : Record) (hr : Delivered r) (hst : StorageOk r) (junk : Nat → Byte) (v : Int) (hv : (meaning r).whole = some v)
    (code : Nat) (d : Rat × List Byte) (hc : scaleCode r = some code) (hd : docScale code = some d) (h : code ≠ 0x279) (hn : correctionOf r = .none) :
    ∃ n, parseVariableRecord junk r = .ok (some n, none) ∧ n.value = .num ((Flt.lit (v : Rat)).mul (.lit d.1)) := by
  have hx : (meaning r).number = some (.lit (v : Rat)) ∧ (meaning r).exact = some (v : Rat) := by
    cases hm : meaning r with
    | int w => rw [hm] at hv; injection hv with hv; subst hv; exact ⟨rfl, rfl⟩
    | bcd ds => rw [hm] at hv; injection hv with hv; subst hv; exact ⟨rfl, rfl⟩
    | _ => rw [hm] at hv; cases hv
  obtain ⟨n, N, hp, hN, _, hv, _⟩ := C69_number r hr hst junk _ hx.1 (scaled_known hc hd)
  obtain ⟨N', hN', _, hval⟩ := normalize_value hr (exact_ordinary hx.2) code _ hc hd h (.lit (v : Rat))
  rw [hN] at hN'; injection hN' with hN'; injection hN' with hN'; subst hN'
  rw [hn] at hval
  exact ⟨n, hp, by rw [hv, hval]⟩

/-- C107: a counter `v` with a decimal scale 10^k, -6 ≤ k ≤ 9, appears in the XML of normalised records as its exact decimal value if the
value is a whole number of at most 53 significant bits or a fraction of at most 1500000000, as that of every counter of at most 32 bits is.
Missing: longer values and smaller scales, where digits are wrong or lost (`C107_digits_violation`, `C107_small_violation`). -/
theorem C107_text_partial (r : Record) (hr : Delivered r) (hst : StorageOk r) (junk : Nat → Byte) (v : Int) (hv : (meaning r).whole = some v)
    (code : Nat) (k : Int) (u : List Byte) (hb : ExactDigits v k) (hc : scaleCode r = some code) (hd : docScale code = some ((10 : Rat) ^ k, u))
    (h : code ≠ 0x279) (hn : correctionOf r = .none) (h1 : -6 ≤ k) (h2 : k ≤ 9) :
    ∃ n, parseVariableRecord junk r = .ok (some n, none) ∧ normText n = decimalText v k := by
  obtain ⟨n, hp, hval⟩ := whole_value r hr hst junk v hv code _ hc hd h hn
  refine ⟨n, hp, ?_⟩
  unfold normText
  rw [hval]
  exact scaled_text v k hb h1 h2

/-- C107: the same for the counters of the fixed data structure, where label and table agree (C38). -/
theorem C107_fixed_partial (status unit : Byte) (data : List Byte) (hl : 4 ≤ data.length) (k : Int) (u : List Byte) (h : unit.toNat % 64 ∉ fixedBad)
    (hd : readLabel (fixedUnit unit.toNat) = some ((10 : Rat) ^ k, u)) (h1 : -6 ≤ k) (h2 : k ≤ 9) :
    ∃ n, parseFixedRecord status unit data = .ok (some n) ∧ n.unit = some u ∧ normText n = decimalText (counterValue status data) k := by
  have hm : ((unit.toNat : Int) % 64).toNat = unit.toNat % 64 := by omega
  obtain ⟨_, c0, cv, cu⟩ := C38_agree_partial unit.toNat (counterValue status data) (.lit 0) _ (by rw [hm]; exact h) hd
  refine ⟨_, (C72_fixed status unit data hl).2 c0, by dsimp only; rw [cu], ?_⟩
  unfold normText
  dsimp only
  rw [cv]
  refine scaled_text _ k (exactDigits_short _ k ?_ h2) h1 h2
  have hlen : (data.take 4).length = 4 := by rw [List.length_take]; omega
  unfold counterValue
  split
  · have h3 := leNat_lt (data.take 4)
    rw [hlen] at h3
    unfold leInt
    rw [hlen]
    split <;> omega
  · have h3 := bcd_bound (data.take 4)
    rw [hlen] at h3
    unfold bcdValue
    dsimp only
    generalize (data.take 4).foldr _ 0 = w at *
    split <;> omega

/-- 12-digit packed decimal 123456789012 in units of 0.1 Wh. -/
def longCounter : Frame := rsp 0x72 (hdr ++ [0x0E, 0x02, 0x12, 0x90, 0x78, 0x56, 0x34, 0x12])

/-- C107 is false of the code for longer counters: 123456789012 * 0.1 Wh is printed as 12345678901.200001. -/
theorem C107_digits_violation : ∃ r v', variableParse longCounter VarData.zero = .ok (0, v') ∧ v'.records = [r] ∧
    (meaning r).whole = some 123456789012 ∧ scaleCode r = some 0x02 ∧ docScale 0x02 = some ((10 : Rat) ^ (-1 : Int), cs! "Wh") ∧
    decimalText 123456789012 (-1) = cs! "12345678901.200000" ∧
    (match parseVariableRecord (fun _ => 0) r with
      | .ok (some n, none) => decide (normText n = cs! "12345678901.200001")
      | _ => false) = true := by
  refine ⟨_, _, rfl, rfl, ?_⟩
  decide +kernel

/-- A volume flow of `v` * 10^-9 m^3/s. -/
def smallFlow (v : Byte) : Frame := rsp 0x72 (hdr ++ [0x01, 0x48, v])

/-- The number printed for the only record of a telegram. -/
def printedNumber (f : Frame) : Option (List Byte) :=
  match variableParse f VarData.zero with
  | .ok (0, v) =>
    match v.records with
    | [r] =>
      match parseVariableRecord (fun _ => 0) r with
      | .ok (some n, none) => some (normText n)
      | _ => none
    | _ => none
  | _ => none

/-- C107 is false of the code for scales below 10^-6: flows of 0 and of 100 * 10^-9 m^3/s are both printed as 0.000000. -/
theorem C107_small_violation : printedNumber (smallFlow 0) = some (cs! "0.000000") ∧ printedNumber (smallFlow 100) = some (cs! "0.000000") := by
  decide +kernel

example : docScale 0x13 = some ((10 : Rat) ^ (-3 : Int), cs! "m^3") ∧ scaleCode volumeItem.1 = some 0x13 ∧ correctionOf volumeItem.1 = .none ∧
    (meaning volumeItem.1).whole = some 5 ∧ (meaning volumeItem.1).exact = some 5 ∧ decimalText 5 (-3) = cs! "0.005000" := by decide +kernel
example : decimalText (-123456) (-2) = cs! "-1234.560000" ∧ decimalText 7 3 = cs! "7000.000000" := by decide +kernel
example : readLabel (fixedUnit (0x29 : Byte).toNat) = some ((10 : Rat) ^ (-3 : Int), cs! "m^3") ∧ (0x29 : Byte).toNat % 64 ∉ fixedBad := by decide +kernel
example : correctionOf (exRec 0x84 0x74) = .times (-2) ∧ correctionOf (exRec 0x84 0xF9) = .plus (-2) ∧ physical 7 10 (.times (-2)) = 7 / 10 := by decide +kernel
-- 70 * 0.01 is not the nearest double to 0.7: the error bound is not 0
example : (Flt.lit 70).mul (.lit (1 / 100)) ≠ .lit (7 / 10) := by decide +kernel

/-! Direct instances of the theorems above. -/

example := C106_nearest (.lit 3) (.lit (1 / 10)) 3 _ (1 / 3) (by decide +kernel) rfl
example := C106_ties (.lit 3) (.lit (1 / 10)) 3 _ (2 ^ 53 + 1) (by decide +kernel) rfl
example := C106_accuracy volumeItem.1 volume_delivered volume_storage (fun _ => 7) 5 (by decide +kernel) 0x13 ((10 : Rat) ^ (-3 : Int), cs! "m^3") (by decide +kernel)
  (by decide +kernel) (by decide)
example := C107_text_partial volumeItem.1 volume_delivered volume_storage (fun _ => 7) 5 (by decide +kernel) 0x13 (-3) (cs! "m^3") (by decide) (by decide +kernel)
  (by decide +kernel) (by decide) (by decide +kernel) (by decide) (by decide)
-- twelve digits: exact in units of 10^-3 or of 10^3, beyond what is proved (and wrong, `C107_digits_violation`) in units of 10^-1
example : ExactDigits 123456789012 (-3) ∧ ExactDigits 123456789012 3 ∧ ¬ ExactDigits 123456789012 (-1) := by decide
example : fmtF ((Flt.lit ((123456789012 : Int) : Rat)).mul (.lit ((10 : Rat) ^ (-3 : Int)))) = cs! "123456789.012000" :=
  (scaled_text 123456789012 (-3) (by decide) (by decide) (by decide)).trans (by decide +kernel)
/-- a dimensionless record: -123456 with VIF 0x78 -/
example := C106_whole_partial bcdRec bcdRec_delivered ⟨by decide +kernel, by decide +kernel⟩ (fun _ => 7) 12345678 (by decide +kernel) (by decide) 0x78 [] (by decide +kernel)
  (by decide +kernel) (by decide +kernel)
example := C106_range volumeItem.1 (.lit 5) (by decide +kernel) 0x13 0x79
example := C106_fixed_range 0x29 (-4294967296) (by decide)
example := C106_fixed_accuracy 0x40 0x29 [0x78, 0x56, 0x34, 0x12, 9] (by decide) ((10 : Rat) ^ (-3 : Int), cs! "m^3") (by decide +kernel) (by decide +kernel)
example := C107_fixed_partial 0x40 0x29 [0x78, 0x56, 0x34, 0x12, 9] (by decide) (-3) (cs! "m^3") (by decide +kernel) (by decide +kernel) (by decide) (by decide)

end Mbus
