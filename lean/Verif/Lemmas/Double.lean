import Verif.Model.Double
import Verif.Spec.Double
/-
Facts about rounding to `double`.
-/
namespace Mbus
open Spec

theorem roundEven_near (x : Rat) (h : 0 ≤ x) :
    (roundEven x : Rat) - x ≤ 1 / 2 ∧ x - (roundEven x : Rat) ≤ 1 / 2 := by
  have h1 := Rat.floor_le x
  have h2 := Rat.lt_floor_add_one x
  have h0 : 0 ≤ x.floor := Rat.le_floor_iff.mpr (by simpa using h)
  obtain ⟨f, hf⟩ := Int.eq_ofNat_of_zero_le h0
  have e : ((x.floor + 1 : Int) : Rat) = (f : Rat) + 1 := by rw [hf]; simp [Rat.intCast_add, Rat.intCast_natCast]
  have e' : ((x.floor : Int) : Rat) = (f : Rat) := by rw [hf]; simp [Rat.intCast_natCast]
  rw [e] at h2
  rw [e'] at h1
  have ef : x.floor.toNat = f := by rw [hf]; rfl
  unfold roundEven
  simp only [ef]
  have e1 : ((f + 1 : Nat) : Rat) = (f : Rat) + 1 := by simp [Rat.natCast_add]
  generalize (f : Rat) = y at *
  by_cases c1 : x - y < 1 / 2
  · rw [if_pos c1]; grind
  · rw [if_neg c1]
    by_cases c2 : 1 / 2 < x - y
    · rw [if_pos c2, e1]; grind
    · rw [if_neg c2]
      split
      · grind
      · rw [e1]; grind

theorem roundEven_le (x : Rat) (n : Nat) (h0 : 0 ≤ x) (h : x < (n : Rat)) : roundEven x ≤ n := by
  have h1 := (roundEven_near x h0).1
  have h2 : (roundEven x : Rat) < ((n + 1 : Nat) : Rat) := by rw [Rat.natCast_add]; grind
  have := Rat.natCast_lt_natCast.mp h2
  omega

/-- no integer is nearer -/
theorem roundEven_nearest (x : Rat) (h : 0 ≤ x) (n : Int) :
    Near (mag ((n : Rat) - x)) x (roundEven x) := by
  obtain ⟨h1, h2⟩ := roundEven_near x h
  by_cases e : n = (roundEven x : Int)
  · subst e
    rw [Rat.intCast_natCast]
    unfold Near mag
    split <;> grind
  · have : n + 1 ≤ (roundEven x : Int) ∨ (roundEven x : Int) + 1 ≤ n := by omega
    have hc : (n : Rat) + 1 ≤ (roundEven x : Rat) ∨ (roundEven x : Rat) + 1 ≤ (n : Rat) := by
      rcases this with h | h
      · left
        have := Rat.intCast_le_intCast.mpr h
        rwa [Rat.intCast_add, Rat.intCast_natCast] at this
      · right
        have := Rat.intCast_le_intCast.mpr h
        rwa [Rat.intCast_add, Rat.intCast_natCast] at this
    unfold Near mag
    rcases hc with hc | hc <;> split <;> grind

theorem two_zpow_pos (k : Int) : (0 : Rat) < (2 : Rat) ^ k := Rat.zpow_pos (by decide)

theorem two_zpow_succ (k : Int) : (2 : Rat) ^ (k + 1) = 2 * (2 : Rat) ^ k := by
  rw [Rat.zpow_add_one (by decide), Rat.mul_comm]

theorem one_le_two_pow (n : Nat) : (1 : Rat) ≤ 2 ^ n := by
  have : ((1 : Nat) : Rat) ≤ ((2 ^ n : Nat) : Rat) := Rat.natCast_le_natCast.mpr (Nat.one_le_two_pow)
  rwa [Rat.natCast_pow] at this

theorem two_zpow_mono {a b : Int} (h : a ≤ b) : (2 : Rat) ^ a ≤ (2 : Rat) ^ b := by
  obtain ⟨n, hn⟩ := Int.eq_ofNat_of_zero_le (show 0 ≤ b - a by omega)
  have e : b = a + (n : Int) := by omega
  rw [e, Rat.zpow_add (by decide), Rat.zpow_natCast]
  have h1 := one_le_two_pow n
  have h2 := two_zpow_pos a
  calc (2 : Rat) ^ a = (2 : Rat) ^ a * 1 := (Rat.mul_one _).symm
    _ ≤ (2 : Rat) ^ a * 2 ^ n := Rat.mul_le_mul_of_nonneg_left h1 (Rat.le_of_lt h2)

theorem two_zpow_lt {a b : Int} (h : (2 : Rat) ^ a < (2 : Rat) ^ b) : a < b := by
  rcases Int.lt_or_le a b with h' | h'
  · exact h'
  · have := two_zpow_mono h'
    grind

/-- the quotient of numerator and denominator -/
theorem rat_split (x : Rat) (h : 0 < x) : x * (x.den : Rat) = (x.num.toNat : Rat) ∧ 0 < x.num.toNat ∧ 0 < x.den := by
  have hn : 0 < x.num := by
    have h1 : 0 ≤ x.num := Rat.num_nonneg.mpr (Rat.le_of_lt h)
    have h2 : x.num ≠ 0 := fun e => by
      have := Rat.num_eq_zero.mp e
      subst this
      exact absurd h (by decide)
    omega
  have e : ((x.num.toNat : Nat) : Rat) = (x.num : Rat) := by
    rw [← Rat.intCast_natCast, Int.toNat_of_nonneg (by omega)]
  refine ⟨?_, by omega, x.den_pos⟩
  rw [e]
  have h1 := Rat.num_divInt_den x
  rw [Rat.divInt_eq_div, Rat.intCast_natCast] at h1
  have hd : (x.den : Rat) ≠ 0 := by
    have : (0 : Rat) < (x.den : Rat) := Rat.natCast_pos.mpr x.den_pos
    grind
  calc x * (x.den : Rat) = (x.num : Rat) / (x.den : Rat) * (x.den : Rat) := by rw [h1]
    _ = (x.num : Rat) := Rat.div_mul_cancel hd

theorem two_zpow_nat (n : Nat) : (2 : Rat) ^ (n : Int) = ((2 ^ n : Nat) : Rat) := by
  rw [Rat.zpow_natCast, Rat.natCast_pow]; rfl

theorem binExp_spec (x : Rat) (h : 0 < x) : (2 : Rat) ^ (binExp x) ≤ x ∧ x < (2 : Rat) ^ (binExp x + 1) := by
  obtain ⟨h1, hn, hd⟩ := rat_split x h
  unfold binExp
  generalize x.num.toNat = n at *
  generalize x.den = d at *
  have ln1 := Nat.log2_self_le (n := n) (by omega)
  have ln2 := Nat.lt_log2_self (n := n)
  have ld1 := Nat.log2_self_le (n := d) (by omega)
  have ld2 := Nat.lt_log2_self (n := d)
  have up : x < (2 : Rat) ^ ((n.log2 : Int) - (d.log2 : Int) + 1) := by
    have a : x * (2 : Rat) ^ (d.log2 : Int) < (2 : Rat) ^ ((n.log2 + 1 : Nat) : Int) := by
      rw [two_zpow_nat, two_zpow_nat]
      have s1 : x * ((2 ^ d.log2 : Nat) : Rat) ≤ (n : Rat) :=
        h1 ▸ Rat.mul_le_mul_of_nonneg_left (Rat.natCast_le_natCast.mpr ld1) (Rat.le_of_lt h)
      exact Std.lt_of_le_of_lt s1 (Rat.natCast_lt_natCast.mpr ln2)
    have e : ((n.log2 + 1 : Nat) : Int) = ((n.log2 : Int) - (d.log2 : Int) + 1) + (d.log2 : Int) := by omega
    rw [e, Rat.zpow_add (by decide)] at a
    exact Rat.lt_of_mul_lt_mul_right a (Rat.le_of_lt (two_zpow_pos _))
  have lo : (2 : Rat) ^ ((n.log2 : Int) - (d.log2 : Int) - 1) < x := by
    have a : (2 : Rat) ^ (n.log2 : Int) < x * (2 : Rat) ^ ((d.log2 + 1 : Nat) : Int) := by
      rw [two_zpow_nat, two_zpow_nat]
      have s1 : (n : Rat) < x * ((2 ^ (d.log2 + 1) : Nat) : Rat) :=
        h1 ▸ Rat.mul_lt_mul_of_pos_left (Rat.natCast_lt_natCast.mpr ld2) h
      exact Std.lt_of_le_of_lt (Rat.natCast_le_natCast.mpr ln1) s1
    have e : (n.log2 : Int) = ((n.log2 : Int) - (d.log2 : Int) - 1) + ((d.log2 + 1 : Nat) : Int) := by omega
    rw [e, Rat.zpow_add (by decide)] at a
    exact Rat.lt_of_mul_lt_mul_right (by simpa using a) (Rat.le_of_lt (two_zpow_pos ((d.log2 + 1 : Nat) : Int)))
  dsimp only
  split
  · rename_i hc; exact ⟨hc, up⟩
  · rename_i hc
    refine ⟨Rat.le_of_lt lo, ?_⟩
    rw [show (n.log2 : Int) - (d.log2 : Int) - 1 + 1 = (n.log2 : Int) - (d.log2 : Int) by omega]
    grind

/-- `x > 0` in units of its last place: between 2^52 and 2^53 -/
theorem scaled_mantissa (x : Rat) (h : 0 < x) : (2 ^ 52 : Rat) ≤ x / (2 : Rat) ^ (binExp x - 52) ∧ x / (2 : Rat) ^ (binExp x - 52) < 2 ^ 53 := by
  obtain ⟨h1, h2⟩ := binExp_spec x h
  have hu := two_zpow_pos (binExp x - 52)
  have e1 : (2 : Rat) ^ (binExp x) = 2 ^ 52 * (2 : Rat) ^ (binExp x - 52) := by
    have := Rat.zpow_add (q := 2) (by decide) ((52 : Nat) : Int) (binExp x - 52)
    rw [Rat.zpow_natCast] at this
    rw [← this]
    congr 1
    omega
  have e2 : (2 : Rat) ^ (binExp x + 1) = 2 ^ 53 * (2 : Rat) ^ (binExp x - 52) := by
    have := Rat.zpow_add (q := 2) (by decide) ((53 : Nat) : Int) (binExp x - 52)
    rw [Rat.zpow_natCast] at this
    rw [← this]
    congr 1
    omega
  rw [e1] at h1
  rw [e2] at h2
  constructor
  · by_cases c : x / (2 : Rat) ^ (binExp x - 52) < 2 ^ 52
    · have := (Rat.div_lt_iff hu).mp c
      grind
    · grind
  · exact (Rat.div_lt_iff hu).mpr h2

/-- a bound scales -/
theorem near_mul {e a b u : Rat} (hu : 0 < u) (h : Near e a b) : Near (e * u) (a * u) (b * u) := by
  obtain ⟨h1, h2⟩ := h
  have a1 := Rat.mul_le_mul_of_nonneg_right h1 (Rat.le_of_lt hu)
  have a2 := Rat.mul_le_mul_of_nonneg_right h2 (Rat.le_of_lt hu)
  constructor <;> grind

theorem mag_mul {a u : Rat} (hu : 0 < u) : mag (a * u) = mag a * u := by
  unfold mag
  by_cases h : a < 0
  · rw [if_pos h, if_pos, Rat.neg_mul]
    have := Rat.mul_lt_mul_of_pos_right h hu
    rwa [Rat.zero_mul] at this
  · rw [if_neg h, if_neg]
    have := Rat.mul_nonneg (a := a) (b := u) (by grind) (Rat.le_of_lt hu)
    grind

theorem mag_nonneg (x : Rat) : 0 ≤ mag x := by unfold mag; split <;> grind

/-- `x` in units of the last place, rounded -/
theorem dblPos_parts (x : Rat) (h : 0 < x) : ∃ (q u : Rat) (k : Int), u = (2 : Rat) ^ k ∧ 0 < u ∧ x = q * u ∧ 2 ^ 52 ≤ q ∧ q < 2 ^ 53 ∧
    dblPos x = (roundEven q : Rat) * u := by
  obtain ⟨h1, h2⟩ := scaled_mantissa x h
  have hu := two_zpow_pos (binExp x - 52)
  refine ⟨_, _, _, rfl, hu, ?_, h1, h2, rfl⟩
  rw [Rat.div_mul_cancel (by grind)]

theorem dblPos_near (x : Rat) (h : 0 < x) : Near (halfUlp * x) x (dblPos x) := by
  obtain ⟨q, u, k, _, hu, rfl, h1, h2, e⟩ := dblPos_parts x h
  rw [e]
  have hq : 0 ≤ q := by grind
  have hn := roundEven_near q hq
  have hh : Near (halfUlp * q) q (roundEven q : Rat) := by
    unfold Near halfUlp
    have : (1 : Rat) / 2 ≤ 1 / 2 ^ 53 * q := by grind
    constructor <;> grind
  have := near_mul hu hh
  rwa [Rat.mul_assoc] at this

theorem dblPos_double (x : Rat) (h : 0 < x) : IsDouble (dblPos x) ∧ 0 < dblPos x := by
  obtain ⟨q, u, k, hk, hu, rfl, h1, h2, e⟩ := dblPos_parts x h
  rw [e]
  have hq : 0 ≤ q := by grind
  have hle : roundEven q ≤ 2 ^ 53 := roundEven_le q _ hq (by
    rw [Rat.natCast_pow]; exact h2)
  have hge : 2 ^ 52 ≤ roundEven q := by
    have a := (roundEven_near q hq).2
    have : ((2 ^ 52 : Nat) : Rat) < ((roundEven q + 1 : Nat) : Rat) := by
      rw [Rat.natCast_pow, Rat.natCast_add]
      have : ((2 : Nat) : Rat) ^ 52 = 2 ^ 52 := rfl
      rw [this]
      grind
    have := Rat.natCast_lt_natCast.mp this
    omega
  constructor
  · by_cases hc : roundEven q = 2 ^ 53
    · refine ⟨2 ^ 52, k + 1, by decide, ?_⟩
      rw [hc, hk, two_zpow_succ]
      have : (((2 ^ 53 : Nat) : Rat)) = (((2 ^ 52 : Int) : Rat)) * 2 := by decide +kernel
      rw [this, Rat.mul_assoc]
    · exact ⟨(roundEven q : Int), k, by simp only [Int.natAbs_natCast]; omega, by rw [hk, Rat.intCast_natCast]⟩
  · exact Rat.mul_pos (Rat.natCast_pos.mpr (by omega)) hu

/-- a `double` in units of a power of two that is not too large -/
theorem double_units (m j k : Int) (hm : m.natAbs < 2 ^ 53) (h : (2 : Rat) ^ 52 * (2 : Rat) ^ k ≤ (m : Rat) * (2 : Rat) ^ j) :
    ∃ n : Int, (m : Rat) * (2 : Rat) ^ j = (n : Rat) * (2 : Rat) ^ k := by
  have hj := two_zpow_pos j
  have hlt : (2 : Rat) ^ (k + 52) < (2 : Rat) ^ (j + 53) := by
    have e1 : (2 : Rat) ^ (k + 52) = 2 ^ 52 * (2 : Rat) ^ k := by
      rw [Rat.zpow_add (by decide), Rat.mul_comm]; rfl
    have e2 : (2 : Rat) ^ (j + 53) = 2 ^ 53 * (2 : Rat) ^ j := by
      rw [Rat.zpow_add (by decide), Rat.mul_comm]; rfl
    rw [e1, e2]
    have : (m : Rat) < 2 ^ 53 := by
      have := Rat.intCast_lt_intCast.mpr (show m < 2 ^ 53 by omega)
      exact this
    have := Rat.mul_lt_mul_of_pos_right this hj
    grind
  have := two_zpow_lt hlt
  obtain ⟨n, hn⟩ := Int.eq_ofNat_of_zero_le (show 0 ≤ j - k by omega)
  refine ⟨m * 2 ^ n, ?_⟩
  have e : j = (n : Int) + k := by omega
  rw [e, Rat.zpow_add (by decide), Rat.zpow_natCast, ← Rat.mul_assoc, Rat.intCast_mul, Rat.intCast_pow]
  rfl

theorem dblPos_nearest (x : Rat) (h : 0 < x) (y : Rat) (hy : IsDouble y) : Near (mag (y - x)) x (dblPos x) := by
  obtain ⟨q, u, k, hk, hu, rfl, h1, h2, e⟩ := dblPos_parts x h
  rw [e]
  have hq : 0 ≤ q := by grind
  have grid : ∀ n : Int, Near (mag ((n : Rat) * u - q * u)) (q * u) ((roundEven q : Rat) * u) := by
    intro n
    have := near_mul hu (roundEven_nearest q hq n)
    rwa [← mag_mul hu, show ((n : Rat) - q) * u = (n : Rat) * u - q * u by grind] at this
  have weaken : ∀ a b : Rat, mag a ≤ mag b → Near (mag a) (q * u) ((roundEven q : Rat) * u) → Near (mag b) (q * u) ((roundEven q : Rat) * u) := by
    intro a b hab ⟨c1, c2⟩
    exact ⟨Rat.le_trans c1 hab, Rat.le_trans c2 hab⟩
  by_cases hlo : y < 2 ^ 52 * u
  · refine weaken _ _ ?_ (grid (2 ^ 52))
    have e : (((2 ^ 52 : Int) : Rat)) = 2 ^ 52 := by decide +kernel
    rw [e]
    have := Rat.mul_le_mul_of_nonneg_right h1 (Rat.le_of_lt hu)
    unfold mag
    split <;> split <;> grind
  · obtain ⟨m, j, hm, rfl⟩ := hy
    obtain ⟨n, hn⟩ := double_units m j k hm (by rw [← hk]; grind)
    rw [hn, ← hk]
    exact grid n

theorem near_neg {e x y : Rat} (h : Near e x y) : Near e (-x) (-y) := ⟨by have := h.2; grind, by have := h.1; grind⟩

theorem dbl_pos {x : Rat} (h : 0 < x) : dbl x = dblPos x := by
  unfold dbl
  rw [if_neg (by grind), if_neg (by grind)]

theorem dbl_neg_eq {x : Rat} (h : x < 0) : dbl x = -dblPos (-x) := by
  unfold dbl
  rw [if_neg (by grind), if_pos h]

theorem dbl_zero : dbl 0 = 0 := rfl

theorem isDouble_neg {x : Rat} (h : IsDouble x) : IsDouble (-x) := by
  obtain ⟨m, k, hm, rfl⟩ := h
  exact ⟨-m, k, by simpa using hm, by rw [Rat.intCast_neg, Rat.neg_mul]⟩

theorem rat_cases (x : Rat) : x < 0 ∨ x = 0 ∨ 0 < x := by grind

/-- rounding keeps the sign -/
theorem dbl_sign (x : Rat) : (0 < dbl x ↔ 0 < x) ∧ (dbl x < 0 ↔ x < 0) := by
  rcases rat_cases x with h | rfl | h
  · have := (dblPos_double (-x) (by grind)).2
    rw [dbl_neg_eq h]; grind
  · rw [dbl_zero]; exact ⟨.rfl, .rfl⟩
  · have := (dblPos_double x h).2
    rw [dbl_pos h]; grind

theorem dbl_neg (x : Rat) : dbl (-x) = -dbl x := by
  rcases rat_cases x with h | rfl | h
  · rw [dbl_neg_eq h, dbl_pos (by grind), Rat.neg_neg]
  · rfl
  · rw [dbl_pos h, dbl_neg_eq (by grind), Rat.neg_neg]

theorem dbl_double (x : Rat) : IsDouble (dbl x) := by
  rcases rat_cases x with h | rfl | h
  · rw [dbl_neg_eq h]; exact isDouble_neg (dblPos_double _ (by grind)).1
  · exact ⟨0, 0, by decide, by rw [dbl_zero]; decide +kernel⟩
  · rw [dbl_pos h]; exact (dblPos_double x h).1

/-- the relative error of one rounding -/
theorem dbl_near (x : Rat) : Near (halfUlp * mag x) x (dbl x) := by
  rcases rat_cases x with h | rfl | h
  · have := near_neg (dblPos_near (-x) (by grind))
    rw [Rat.neg_neg] at this
    rw [dbl_neg_eq h]
    unfold mag
    rwa [if_pos h]
  · exact ⟨by decide +kernel, by decide +kernel⟩
  · rw [dbl_pos h]
    unfold mag
    rw [if_neg (by grind)]
    exact dblPos_near x h

/-- no `double` is nearer -/
theorem dbl_nearest (x y : Rat) (hy : IsDouble y) : Near (mag (y - x)) x (dbl x) := by
  rcases rat_cases x with h | rfl | h
  · have := near_neg (dblPos_nearest (-x) (by grind) (-y) (isDouble_neg hy))
    rw [Rat.neg_neg] at this
    rw [dbl_neg_eq h]
    have e : mag (-y - -x) = mag (y - x) := by
      unfold mag
      split <;> split <;> grind
    rwa [e] at this
  · rw [dbl_zero]
    have := mag_nonneg (y - 0)
    constructor <;> grind
  · rw [dbl_pos h]; exact dblPos_nearest x h y hy

/-- a `double` is not changed -/
theorem dbl_exact {x : Rat} (h : IsDouble x) : dbl x = x := by
  obtain ⟨h1, h2⟩ := dbl_nearest x x h
  have : mag (x - x) = 0 := by rw [show x - x = 0 by grind]; rfl
  rw [this] at h1 h2
  grind

theorem dbl_int (z : Int) (h : z.natAbs ≤ 2 ^ 53) : dbl (z : Rat) = (z : Rat) := by
  refine dbl_exact ?_
  by_cases hc : z.natAbs = 2 ^ 53
  · have : z = 2 ^ 53 ∨ z = -2 ^ 53 := by omega
    rcases this with rfl | rfl
    · exact ⟨2 ^ 52, 1, by decide, by decide +kernel⟩
    · exact ⟨-2 ^ 52, 1, by decide, by decide +kernel⟩
  · exact ⟨z, 0, by omega, by rw [show (2 : Rat) ^ (0 : Int) = 1 from rfl, Rat.mul_one]⟩

/-! ### the values of C's `double` -/

theorem lit_pos {e : Rat} (he : 0 < e) : Flt.lit e = .fin false (dbl e) := by
  have : ¬ e < 0 := by grind
  simp [Flt.lit, this]

theorem mul_infinite (x : Flt) (hq : ∀ neg m, x ≠ .fin neg m) (e : Rat) (he : 0 < e) : x.mul (.lit e) = x := by
  have h : ¬ dbl e = 0 := fun h => by have := (dbl_sign e).1.mpr he; grind
  rw [lit_pos he]
  cases x with
  | fin neg m => exact absurd rfl (hq neg m)
  | inf neg => simp [Flt.mul, h]
  | nan neg => rfl

theorem add_infinite (x : Flt) (hq : ∀ neg m, x ≠ .fin neg m) (e : Rat) : x.add (.lit e) = x := by
  cases x with
  | fin neg m => exact absurd rfl (hq neg m)
  | inf neg => rfl
  | nan neg => rfl

end Mbus
