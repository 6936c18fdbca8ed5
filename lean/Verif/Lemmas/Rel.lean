import Verif.Spec.Exact
import Verif.Lemmas.Double
/- Relative errors of `double` computations. -/
namespace Mbus
open Spec

/-- `y` is `x` with a relative error of at most `e` -/
def Rel (e x y : Rat) : Prop := ∃ t : Rat, -e ≤ t ∧ t ≤ e ∧ y = x * (1 + t)

theorem prod_bound {e f s t : Rat} (s0 : -e ≤ s) (s1 : s ≤ e) (t0 : -f ≤ t) (t1 : t ≤ f) : -(e * f) ≤ s * t ∧ s * t ≤ e * f := by
  have a := Rat.mul_nonneg (show 0 ≤ e - s by grind) (show 0 ≤ f + t by grind)
  have b := Rat.mul_nonneg (show 0 ≤ e + s by grind) (show 0 ≤ f - t by grind)
  have c := Rat.mul_nonneg (show 0 ≤ e - s by grind) (show 0 ≤ f - t by grind)
  have d := Rat.mul_nonneg (show 0 ≤ e + s by grind) (show 0 ≤ f + t by grind)
  constructor <;> grind

theorem Rel.mul {e f x y a b : Rat} (h : Rel e x a) (h' : Rel f y b) : Rel (e + f + e * f) (x * y) (a * b) := by
  obtain ⟨s, s0, s1, rfl⟩ := h
  obtain ⟨t, t0, t1, rfl⟩ := h'
  obtain ⟨p0, p1⟩ := prod_bound s0 s1 t0 t1
  exact ⟨s + t + s * t, by grind, by grind, by grind⟩

theorem Rel.trans {e f x y z : Rat} (h : Rel e x y) (h' : Rel f y z) : Rel (e + f + e * f) x z := by
  obtain ⟨s, s0, s1, rfl⟩ := h
  obtain ⟨t, t0, t1, rfl⟩ := h'
  obtain ⟨p0, p1⟩ := prod_bound s0 s1 t0 t1
  exact ⟨s + t + s * t, by grind, by grind, by grind⟩

theorem Rel.mono {e f x y : Rat} (h : Rel e x y) (hl : e ≤ f) : Rel f x y := by
  obtain ⟨s, s0, s1, h⟩ := h
  exact ⟨s, by grind, by grind, h⟩

theorem mag_eq (x : Rat) : (0 ≤ x ∧ mag x = x) ∨ (x < 0 ∧ mag x = -x) := by
  unfold mag
  split
  · exact .inr ⟨by assumption, rfl⟩
  · exact .inl ⟨by grind, rfl⟩

theorem Rel.near {e x y : Rat} (h : Rel e x y) : Near (e * mag x) x y := by
  obtain ⟨t, t0, t1, rfl⟩ := h
  have h0 := mag_nonneg x
  have a := Rat.mul_le_mul_of_nonneg_right t1 h0
  have b := Rat.mul_le_mul_of_nonneg_right t0 h0
  rcases mag_eq x with ⟨_, e⟩ | ⟨_, e⟩ <;> rw [e] at a b ⊢ <;> constructor <;> grind

theorem Rel.of_near {e x y : Rat} (h0 : 0 ≤ e) (h : Near (e * mag x) x y) : Rel e x y := by
  obtain ⟨a, b⟩ := h
  by_cases hx : x = 0
  · subst hx
    have : mag 0 = 0 := rfl
    rw [this] at a b
    exact ⟨0, by grind, by grind, by grind⟩
  · have hy : y - x = (y - x) / x * x := (Rat.div_mul_cancel hx).symm
    generalize (y - x) / x = t at hy
    rw [hy] at a
    have hy' : x - y = -(t * x) := by grind
    rw [hy'] at b
    refine ⟨t, ?_, ?_, by grind⟩
    · rcases mag_eq x with ⟨hs, e'⟩ | ⟨hs, e'⟩ <;> rw [e'] at a b
      · exact Rat.le_of_mul_le_mul_right (c := x) (by grind) (by grind)
      · exact Rat.le_of_mul_le_mul_right (c := -x) (by grind) (by grind)
    · rcases mag_eq x with ⟨hs, e'⟩ | ⟨hs, e'⟩ <;> rw [e'] at a b
      · exact Rat.le_of_mul_le_mul_right (c := x) (by grind) (by grind)
      · exact Rat.le_of_mul_le_mul_right (c := -x) (by grind) (by grind)

theorem rel_dbl (x : Rat) : Rel halfUlp x (dbl x) := .of_near (by decide +kernel) (dbl_near x)

theorem Rel.refl (x : Rat) : Rel 0 x x := ⟨0, by decide, by decide, by grind⟩

theorem rel_add {e f x y a b : Rat} (h : Rel e x a) (h' : Rel f y b) (hy : 0 ≤ y) (hf : f ≤ e) :
    Near ((e + halfUlp + e * halfUlp) * (mag x + y)) (x + y) (dbl (a + b)) := by
  have hb := h'.mono hf
  have a1 := h.near
  have b1 := hb.near
  have my : mag y = y := if_neg (by grind)
  rw [my] at b1
  have d := dbl_near (a + b)
  have u0 : (0 : Rat) ≤ halfUlp := by decide +kernel
  have hm : mag (a + b) ≤ (1 + e) * (mag x + y) := by
    rcases mag_eq x with ⟨hs, e'⟩ | ⟨hs, e'⟩ <;> rw [e'] at a1 ⊢ <;> unfold mag <;> split <;>
      (have p1 := a1.1; have p2 := a1.2; have p3 := b1.1; have p4 := b1.2; grind)
  have hu := Rat.mul_le_mul_of_nonneg_left hm u0
  have p1 := a1.1; have p2 := a1.2; have p3 := b1.1; have p4 := b1.2; have p5 := d.1; have p6 := d.2
  constructor <;> grind

/-! ### values -/

theorem valueOf_lit (x : Rat) : valueOf (.lit x) = some (dbl x) := by
  unfold Flt.lit valueOf
  by_cases h : x < 0
  · simp [h, dbl_neg]
  · simp [h]

theorem valueOf_mul {x y : Flt} {a b : Rat} (hx : valueOf x = some a) (hy : valueOf y = some b) : valueOf (x.mul y) = some (dbl (a * b)) := by
  cases x with
  | inf n => cases hx
  | nan n => cases hx
  | fin n m =>
    cases y with
    | inf n => cases hy
    | nan n => cases hy
    | fin n' k =>
      simp only [valueOf, Option.some.injEq] at hx hy
      subst hx hy
      cases n <;> cases n' <;> simp [Flt.mul, valueOf, Rat.mul_neg, Rat.neg_mul, dbl_neg]

theorem valueOf_add {x y : Flt} {a b : Rat} (hx : valueOf x = some a) (hy : valueOf y = some b) : valueOf (x.add y) = some (dbl (a + b)) := by
  cases x with
  | inf n => cases hx
  | nan n => cases hx
  | fin n m =>
    cases y with
    | inf n => cases hy
    | nan n => cases hy
    | fin n' k =>
      simp only [valueOf, Option.some.injEq] at hx hy
      simp only [Flt.add]
      rw [hx, hy]
      by_cases h0 : a + b = 0
      · rw [if_pos h0, h0, dbl_zero]
        simp [valueOf]
      · rw [if_neg h0]
        by_cases h : a + b < 0
        · simp [h, valueOf, dbl_neg]
        · simp [h, valueOf]

theorem roundEven_tie (q : Rat) (hq : 0 ≤ q) (j : Int) (hj : j ≠ (roundEven q : Int)) (h : mag ((j : Rat) - q) = mag ((roundEven q : Rat) - q)) :
    roundEven q % 2 = 0 := by
  obtain ⟨n1, n2⟩ := roundEven_near q hq
  -- both at distance exactly one half
  have hgap : (1 : Rat) ≤ mag ((j : Rat) - (roundEven q : Rat)) := by
    rcases Int.lt_or_gt_of_ne hj with h' | h'
    · have : ((j + 1 : Int) : Rat) ≤ ((roundEven q : Int) : Rat) := Rat.intCast_le_intCast.mpr (by omega)
      rw [Rat.intCast_add, Rat.intCast_natCast] at this
      rcases mag_eq ((j : Rat) - (roundEven q : Rat)) with ⟨_, e⟩ | ⟨_, e⟩ <;> rw [e] <;> grind
    · have : ((roundEven q + 1 : Int) : Rat) ≤ (j : Rat) := Rat.intCast_le_intCast.mpr (by omega)
      rw [Rat.intCast_add, Rat.intCast_natCast] at this
      rcases mag_eq ((j : Rat) - (roundEven q : Rat)) with ⟨_, e⟩ | ⟨_, e⟩ <;> rw [e] <;> grind
  have hhalf : 1 / 2 ≤ (roundEven q : Rat) - q ∨ 1 / 2 ≤ q - (roundEven q : Rat) := by
    rcases mag_eq ((j : Rat) - (roundEven q : Rat)) with ⟨_, e⟩ | ⟨_, e⟩ <;> rw [e] at hgap <;>
    rcases mag_eq ((j : Rat) - q) with ⟨_, e1⟩ | ⟨_, e1⟩ <;> rw [e1] at h <;>
    rcases mag_eq ((roundEven q : Rat) - q) with ⟨_, e2⟩ | ⟨_, e2⟩ <;> rw [e2] at h <;> grind
  clear hgap h n1 n2 hj
  have f1 := Rat.floor_le q
  have f2 := Rat.lt_floor_add_one q
  have f0 : 0 ≤ q.floor := Rat.le_floor_iff.mpr (by simpa using hq)
  have ef : ((q.floor.toNat : Nat) : Rat) = (q.floor : Rat) := by
    rw [← Rat.intCast_natCast, Int.toNat_of_nonneg f0]
  unfold roundEven at hhalf ⊢
  dsimp only at hhalf ⊢
  rw [ef] at hhalf ⊢
  by_cases c1 : q - (q.floor : Rat) < 1 / 2
  · rw [if_pos c1] at hhalf; rw [ef] at hhalf; rw [Rat.intCast_add] at f2; clear ef f0; generalize (q.floor : Rat) = F at *; exfalso; grind
  · rw [if_neg c1] at hhalf ⊢
    by_cases c2 : 1 / 2 < q - (q.floor : Rat)
    · rw [if_pos c2, Rat.natCast_add, ef] at hhalf
      exfalso
      have e1 : ((1 : Nat) : Rat) = 1 := rfl
      rw [e1] at hhalf; rw [Rat.intCast_add] at f2; clear ef f0; generalize (q.floor : Rat) = F at *
      grind
    · rw [if_neg c2]
      split
      · assumption
      · omega


theorem dblPos_tie (x : Rat) (h : 0 < x) (y : Rat) (hy : IsDouble y) (hne : y ≠ dblPos x) (ht : mag (y - x) = mag (dblPos x - x)) :
    EvenDouble (dblPos x) := by
  obtain ⟨q, u, k, hk, hu, rfl, h1, h2, e⟩ := dblPos_parts x h
  have hq : 0 ≤ q := by grind
  obtain ⟨n1, n2⟩ := roundEven_near q hq
  have hle : roundEven q ≤ 2 ^ 53 := roundEven_le q _ hq (by
    have : ((2 ^ 53 : Nat) : Rat) = 2 ^ 53 := by rw [Rat.natCast_pow]; rfl
    rw [this]; exact h2)
  have hge : 2 ^ 52 ≤ roundEven q := by
    have : ((2 ^ 52 : Nat) : Rat) < ((roundEven q + 1 : Nat) : Rat) := by
      rw [Rat.natCast_add, show ((2 ^ 52 : Nat) : Rat) = 2 ^ 52 by rw [Rat.natCast_pow]; rfl, show ((1 : Nat) : Rat) = 1 from rfl]
      grind
    have := Rat.natCast_lt_natCast.mp this
    omega
  refine ⟨roundEven q, k, ?_, by simpa using hge, by simpa using hle, by rw [e, hk, Rat.intCast_natCast]⟩
  have hj : ∃ j : Int, y = (j : Rat) * u := by
    by_cases hb : 2 ^ 52 * u ≤ y
    · obtain ⟨m, j, hm, rfl⟩ := hy
      rw [hk] at hb ⊢
      exact double_units m j k hm hb
    · -- nearer to the power of two
      exfalso
      have hb' : y < 2 ^ 52 * u := by grind
      have hqu : 2 ^ 52 * u ≤ q * u := Rat.mul_le_mul_of_nonneg_right h1 (Rat.le_of_lt hu)
      have hd : mag (y - q * u) = q * u - y := by
        rcases mag_eq (y - q * u) with ⟨_, e⟩ | ⟨_, e⟩ <;> rw [e] <;> grind
      have hn := roundEven_nearest q hq (2 ^ 52)
      have hn' := near_mul hu hn
      rw [← mag_mul hu] at hn'
      have e52 : ((((2 : Int) ^ 52 : Int) : Rat) - q) * u = 2 ^ 52 * u - q * u := by
        rw [show ((((2 : Int) ^ 52 : Int) : Rat)) = 2 ^ 52 by decide +kernel]; grind
      rw [e52, ← e] at hn'
      have hd2 : mag (2 ^ 52 * u - q * u) = q * u - 2 ^ 52 * u := by
        rcases mag_eq (2 ^ 52 * u - q * u) with ⟨_, e⟩ | ⟨_, e⟩ <;> rw [e] <;> grind
      rw [hd2] at hn'
      obtain ⟨a1, a2⟩ := hn'
      rw [hd] at ht
      rcases mag_eq (dblPos (q * u) - q * u) with ⟨_, e⟩ | ⟨_, e⟩ <;> rw [e] at ht <;> grind
  obtain ⟨j, rfl⟩ := hj
  have hjne : j ≠ (roundEven q : Int) := by
    rintro rfl
    exact hne (by rw [e, Rat.intCast_natCast])
  have ht' : mag ((j : Rat) - q) = mag ((roundEven q : Rat) - q) := by
    rw [e, show (j : Rat) * u - q * u = ((j : Rat) - q) * u by grind, show (roundEven q : Rat) * u - q * u = ((roundEven q : Rat) - q) * u by grind, mag_mul hu, mag_mul hu] at ht
    have hu0 : u ≠ 0 := by grind
    have a : ∀ z : Rat, z * u / u = z := fun z => by rw [Rat.div_def, Rat.mul_assoc, Rat.mul_inv_cancel u hu0, Rat.mul_one]
    rw [← a (mag ((j : Rat) - q)), ht, a]
  have := roundEven_tie q hq j hjne ht'
  omega

theorem dbl_tie (x y : Rat) (hy : IsDouble y) (hne : y ≠ dbl x) (ht : mag (y - x) = mag (dbl x - x)) : EvenDouble (dbl x) := by
  have mneg : ∀ a : Rat, mag (-a) = mag a := by
    intro a
    rcases mag_eq a with ⟨_, e⟩ | ⟨_, e⟩ <;> rw [e] <;> rcases mag_eq (-a) with ⟨_, e⟩ | ⟨_, e⟩ <;> rw [e] <;> grind
  by_cases h0 : x = 0
  · subst h0
    exfalso
    rw [dbl_zero] at ht hne
    rcases mag_eq (y - 0) with ⟨_, e⟩ | ⟨_, e⟩ <;> rw [e, show mag ((0 : Rat) - 0) = 0 by decide +kernel] at ht <;> grind
  by_cases hn : x < 0
  · rw [dbl_neg_eq hn] at ht hne ⊢
    obtain ⟨m, k, h1, h2, h3, h4⟩ := dblPos_tie (-x) (by grind) (-y) (isDouble_neg hy) (by intro h; apply hne; rw [← h]; grind) (by
      rw [← mneg (-y - -x), ← mneg (dblPos (-x) - -x), show -(-y - -x) = y - x by grind, show -(dblPos (-x) - -x) = -dblPos (-x) - x by grind]
      exact ht)
    exact ⟨-m, k, by omega, by omega, by omega, by rw [h4, Rat.intCast_neg, Rat.neg_mul]⟩
  · rw [dbl_pos (by grind)] at ht hne ⊢
    exact dblPos_tie x (by grind) y hy hne ht

end Mbus
