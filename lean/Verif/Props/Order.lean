import Verif.Props.Double
import Verif.Spec.Order
/-
Property theorems C132: normalisation keeps the order of readings.  `readDecimal` is from Spec/Order.lean.
-/
namespace Mbus
open Spec

/-! ### rounding is monotone -/

theorem dbl_mono {x y : Rat} (h : x ≤ y) : dbl x ≤ dbl y := by
  by_cases e : x = y
  · rw [e]
    grind
  obtain ⟨a1, a2⟩ := dbl_nearest x (dbl y) (dbl_double y)
  obtain ⟨b1, b2⟩ := dbl_nearest y (dbl x) (dbl_double x)
  by_cases hc : dbl x ≤ dbl y
  · exact hc
  unfold mag at a1 a2 b1 b2
  split at a1 <;> split at b1 <;> grind

theorem roundEven_mono {x y : Rat} (hx : 0 ≤ x) (h : x ≤ y) : roundEven x ≤ roundEven y := by
  by_cases e : x = y
  · rw [e]
    exact Nat.le_refl _
  obtain ⟨a1, a2⟩ := roundEven_near x hx
  obtain ⟨b1, b2⟩ := roundEven_near y (by grind)
  by_cases hc : roundEven x ≤ roundEven y
  · exact hc
  have : ((roundEven y + 1 : Nat) : Rat) ≤ (roundEven x : Rat) := Rat.natCast_le_natCast.mpr (by omega)
  rw [Rat.natCast_add] at this
  grind

set_option maxRecDepth 100000 in
theorem docScale_pos {code : Nat} {d : Rat × List Byte} (h : docScale code = some d) : 0 < d.1 := by
  have key : ∀ c : Fin 640, (docScale c.val).all (fun d => decide (0 < d.1)) = true := by decide +kernel
  by_cases hc : code < 640
  · have := key ⟨code, hc⟩
    dsimp only at this
    rw [h] at this
    simpa using this
  · have : docRanges.find? (fun r => decide (r.lo ≤ code) && decide (code ≤ r.hi)) = none := by
      rw [List.find?_eq_none]
      have hb : ∀ r ∈ docRanges, r.hi < 640 := by decide +kernel
      intro r hr
      have := hb r hr
      simp
      omega
    unfold docScale at h
    rw [this] at h
    cases h

/-! ### printed numbers -/

theorem readNat_decW (w m : Nat) : readNat (decW (w + 1) m) = some (m % 10 ^ (w + 1)) := by
  induction w generalizing m with
  | zero =>
    have : ∀ k : Fin 10, readNat [UInt8.ofNat (48 + k.val)] = some k.val := by decide +kernel
    have := this ⟨m % 10, Nat.mod_lt _ (by decide)⟩
    simpa [decW] using this
  | succ w ih =>
    have e : decW (w + 1 + 1) m = decW (w + 1) (m / 10) ++ [UInt8.ofNat (48 + m % 10)] := rfl
    have h := ih (m / 10)
    have hc : (UInt8.ofNat (48 + m % 10)).toNat = 48 + m % 10 := UInt8.toNat_ofNat_of_lt' (show _ < 256 by omega)
    rw [e, readNat_snoc _ _ _ h (by rw [hc]; omega), hc]
    congr 1
    have e1 : 10 ^ (w + 1 + 1) = 10 * 10 ^ (w + 1) := by rw [Nat.pow_succ, Nat.mul_comm]
    rw [e1, Nat.mod_mul]
    omega

theorem decDigits_nopoint (n : Nat) : ∀ c ∈ decDigits n, (c ≠ 46 : Bool) = true := by
  intro c hc
  have := decDigits_digit n c hc
  have : c ≠ 46 := by
    rintro rfl
    exact absurd this.1 (by decide)
  simpa using this

theorem readUnsigned_micro (n : Nat) :
    readUnsigned (decDigits (n / 1000000) ++ [46] ++ padZero 6 (decDigits (n % 1000000))) = some ((n : Rat) / 1000000) := by
  have hp : padZero 6 (decDigits (n % 1000000)) = decW 6 (n % 1000000) := padZero_dec 6 _ (by decide) (Nat.mod_lt _ (by decide))
  rw [hp, List.append_assoc]
  unfold readUnsigned
  rw [List.takeWhile_append_of_pos (decDigits_nopoint _), List.dropWhile_append_of_pos (decDigits_nopoint _)]
  have e1 : List.takeWhile (fun c : Byte => (c ≠ 46 : Bool)) ([46] ++ decW 6 (n % 1000000)) = [] := rfl
  have e2 : List.dropWhile (fun c : Byte => (c ≠ 46 : Bool)) ([46] ++ decW 6 (n % 1000000)) = 46 :: decW 6 (n % 1000000) := rfl
  rw [e1, e2, List.append_nil, readNat_decDigits, List.drop_succ_cons, List.drop_zero, readNat_decW 5, decW_length]
  have e3 : n % 1000000 % 10 ^ (5 + 1) = n % 1000000 := by omega
  rw [e3]
  show some ((((n / 1000000 : Nat)) : Rat) + ((n % 1000000 : Nat) : Rat) / (10 : Rat) ^ 6) = _
  congr 1
  have h : n = 1000000 * (n / 1000000) + n % 1000000 := by omega
  have h2 : (n : Rat) = 1000000 * ((n / 1000000 : Nat) : Rat) + ((n % 1000000 : Nat) : Rat) := by
    have := congrArg (Nat.cast (R := Rat)) h
    rw [Rat.natCast_add, Rat.natCast_mul] at this
    exact this
  have e10 : (10 : Rat) ^ 6 = 1000000 := by decide +kernel
  rw [e10, h2]
  grind

/-- The number printed for a finite value: the value rounded to millionths. -/
theorem readDecimal_fmtF (neg : Bool) (m : Rat) :
    readDecimal (fmtF (.fin neg m)) = some ((if neg then -1 else 1) * ((roundEven (m * 1000000) : Nat) : Rat) / 1000000) := by
  unfold fmtF
  dsimp only
  generalize roundEven (m * 1000000) = n
  cases neg with
  | true =>
    have e : readDecimal ((if true = true then [45] else []) ++ decDigits (n / 1000000) ++ [46] ++ padZero 6 (decDigits (n % 1000000))) =
        (readUnsigned (decDigits (n / 1000000) ++ [46] ++ padZero 6 (decDigits (n % 1000000)))).map fun x => -x := rfl
    rw [e, readUnsigned_micro]
    simp
    grind
  | false =>
    have e : readDecimal ((if false = true then [45] else []) ++ decDigits (n / 1000000) ++ [46] ++ padZero 6 (decDigits (n % 1000000))) =
        readUnsigned (decDigits (n / 1000000) ++ [46] ++ padZero 6 (decDigits (n % 1000000))) := by
      have hne : decDigits (n / 1000000) ≠ [] := by unfold decDigits; split <;> simp
      have hd := decDigits_digit (n / 1000000)
      cases h : decDigits (n / 1000000) with
      | nil => exact absurd h hne
      | cons c l =>
        rw [h] at hd
        have hc : c ≠ 45 := by
          rintro rfl
          exact absurd (hd 45 (List.mem_cons_self ..)).1 (by decide)
        show readDecimal (c :: (l ++ [46] ++ padZero 6 (decDigits (n % 1000000)))) = _
        unfold readDecimal
        split
        · rename_i heq
          injection heq with h1
          exact absurd h1 hc
        · rfl
    rw [e, readUnsigned_micro]
    simp

/-- Printing keeps the order. -/
theorem printed_mono {x y : Flt} {a b : Rat} (hx : valueOf x = some a) (hy : valueOf y = some b) (px : ∀ neg m, x = .fin neg m → 0 ≤ m)
    (py : ∀ neg m, y = .fin neg m → 0 ≤ m) (h : a ≤ b) :
    ∃ v w, readDecimal (fmtF x) = some v ∧ readDecimal (fmtF y) = some w ∧ v ≤ w := by
  cases x with
  | inf n => cases hx
  | nan n => cases hx
  | fin s m =>
    cases y with
    | inf n => cases hy
    | nan n => cases hy
    | fin t k =>
      have hm := px s m rfl
      have hk := py t k rfl
      injection hx with hx
      injection hy with hy
      refine ⟨_, _, readDecimal_fmtF _ _, readDecimal_fmtF _ _, ?_⟩
      have up : ∀ p q : Rat, 0 ≤ p → p ≤ q → ((roundEven (p * 1000000) : Nat) : Rat) ≤ ((roundEven (q * 1000000) : Nat) : Rat) := fun p q hp hpq =>
        Rat.natCast_le_natCast.mpr (roundEven_mono (by grind) (by grind))
      have nn : ∀ p : Rat, (0 : Rat) ≤ ((roundEven (p * 1000000) : Nat) : Rat) := fun p => Rat.natCast_nonneg
      have n1 := nn m
      have n2 := nn k
      cases s <;> cases t <;> simp only [if_true, Bool.false_eq_true, if_false] at hx hy ⊢
      · have := up m k hm (by grind)
        grind
      · have h0 : m = 0 ∧ k = 0 := by grind
        rw [h0.1, h0.2]
        decide +kernel
      · grind
      · have := up k m hk (by grind)
        grind

/-! ### the operations of the normalisation -/

/-- The magnitude is not negative. -/
def Sound (x : Flt) : Prop := ∀ neg m, x = .fin neg m → 0 ≤ m

theorem dbl_nonneg {x : Rat} (h : 0 ≤ x) : 0 ≤ dbl x := by
  have := (dbl_sign x).2
  grind

theorem sound_lit (x : Rat) : Sound (.lit x) := by
  intro neg m h
  unfold Flt.lit at h
  injection h with _ h
  rw [← h]
  exact dbl_nonneg (by split <;> grind)

theorem sound_mul {x y : Flt} (hx : Sound x) (hy : Sound y) : Sound (x.mul y) := by
  intro neg m h
  cases x with
  | nan n => cases y <;> cases h
  | inf n =>
    cases y with
    | nan k => cases h
    | inf k => cases h
    | fin b k => simp only [Flt.mul] at h; split at h <;> cases h
  | fin a j =>
    cases y with
    | nan k => cases h
    | inf k => simp only [Flt.mul] at h; split at h <;> cases h
    | fin b k =>
      simp only [Flt.mul] at h
      injection h with _ h
      rw [← h]
      exact dbl_nonneg (Rat.mul_nonneg (hx _ _ rfl) (hy _ _ rfl))

theorem sound_add {x y : Flt} : Sound (x.add y) ∨ ∃ n, x.add y = .inf n ∨ x.add y = .nan n := by
  cases x with
  | nan n => exact .inr ⟨n, .inr (by cases y <;> rfl)⟩
  | inf n =>
    cases y with
    | nan k => exact .inr ⟨k, .inr rfl⟩
    | inf k =>
      simp only [Flt.add]
      split
      · exact .inr ⟨n, .inl rfl⟩
      · exact .inr ⟨true, .inr rfl⟩
    | fin b k => exact .inr ⟨n, .inl rfl⟩
  | fin a j =>
    cases y with
    | nan k => exact .inr ⟨k, .inr rfl⟩
    | inf k => exact .inr ⟨k, .inl rfl⟩
    | fin b k =>
      left
      intro neg m h
      unfold Flt.add at h
      dsimp only at h
      generalize (if a = true then -j else j) + (if b = true then -k else k) = t at h
      split at h
      · injection h with _ h
        rw [← h]
        grind
      · injection h with _ h
        rw [← h]
        exact dbl_nonneg (by split <;> grind)

theorem sound_add' (x y : Flt) : Sound (x.add y) := by
  rcases sound_add (x := x) (y := y) with h | ⟨n, h | h⟩
  · exact h
  · rw [h]; intro _ _ h; cases h
  · rw [h]; intro _ _ h; cases h

/-- The number of a record with factor `f` and a correction, as it is computed. -/
def scaled (f : Rat) (c : Correction) (x : Flt) : Flt :=
  match c with
  | .none => x.mul (.lit f)
  | .times k => (x.mul (.lit f)).mul (.lit ((10 : Rat) ^ k))
  | .plus k => (x.mul (.lit f)).add (.lit ((10 : Rat) ^ k))

theorem scaled_mono {f : Rat} (hf : 0 < f) (c : Correction) {x y : Flt} {a b : Rat} (hx : valueOf x = some a) (hy : valueOf y = some b) (h : a ≤ b)
    (px : Sound x) (py : Sound y) : ∃ z w, valueOf (scaled f c x) = some z ∧ valueOf (scaled f c y) = some w ∧ z ≤ w ∧
      Sound (scaled f c x) ∧ Sound (scaled f c y) := by
  have hd : (0 : Rat) ≤ dbl f := dbl_nonneg (by grind)
  have h1 := valueOf_mul hx (valueOf_lit f)
  have h2 := valueOf_mul hy (valueOf_lit f)
  have m1 : dbl (a * dbl f) ≤ dbl (b * dbl f) := dbl_mono (Rat.mul_le_mul_of_nonneg_right h hd)
  have s1 := sound_mul px (sound_lit f)
  have s2 := sound_mul py (sound_lit f)
  cases c with
  | none => exact ⟨_, _, h1, h2, m1, s1, s2⟩
  | times k =>
    have hk : (0 : Rat) ≤ dbl ((10 : Rat) ^ k) := dbl_nonneg (Rat.le_of_lt (Rat.zpow_pos (by decide)))
    exact ⟨_, _, valueOf_mul h1 (valueOf_lit _), valueOf_mul h2 (valueOf_lit _), dbl_mono (Rat.mul_le_mul_of_nonneg_right m1 hk),
      sound_mul s1 (sound_lit _), sound_mul s2 (sound_lit _)⟩
  | plus k =>
    exact ⟨_, _, valueOf_add h1 (valueOf_lit _), valueOf_add h2 (valueOf_lit _), dbl_mono (by grind), sound_add' _ _, sound_add' _ _⟩

theorem number_exact (r : Record) (q : Rat) (h : (meaning r).exact = some q) : ∃ x, (meaning r).number = some x ∧ valueOf x = some (dbl q) ∧ Sound x := by
  have hb : ∀ x, (meaning r).number = some x → Sound x := fun x hx neg m e => ((number_below r x hx) neg m e).1
  cases hm : meaning r with
  | int v => rw [hm] at h hb; injection h with h; subst h; exact ⟨_, rfl, valueOf_lit _, hb _ rfl⟩
  | bcd ds => rw [hm] at h hb; injection h with h; subst h; exact ⟨_, rfl, valueOf_lit _, hb _ rfl⟩
  | real x =>
    have hp := (number_proper r x (by rw [hm]; rfl)).2
    rw [hm] at h hb
    have h : valueOf x = some q := h
    refine ⟨x, rfl, ?_, hb _ rfl⟩
    cases x with
    | inf n => cases h
    | nan n => cases h
    | fin s m =>
      rw [h]
      injection h with h
      have := hp s m rfl
      have hq : IsDouble q := by
        rw [← h]
        split
        · exact isDouble_neg this
        · exact this
      rw [dbl_exact hq]
  | _ => rw [hm] at h; cases h

/-! ### C132 -/

/-- C132: of two records with the same scale and correction, whatever the coding and width of their numbers, the one with the larger number
never has the smaller normalised value, nor the smaller number in the XML of normalised records. -/
theorem C132_order (r s : Record) (hr : Delivered r) (hs : Delivered s) (hst : StorageOk r) (hst' : StorageOk s) (junk junk' : Nat → Byte)
    (q q' : Rat) (hq : (meaning r).exact = some q) (hq' : (meaning s).exact = some q') (hle : q ≤ q')
    (code : Nat) (d : Rat × List Byte) (hc : scaleCode r = some code) (hc' : scaleCode s = some code) (hd : docScale code = some d) (h : code ≠ 0x279)
    (hcor : correctionOf r = correctionOf s) :
    ∃ n n' y y' z z' v v', parseVariableRecord junk r = .ok (some n, none) ∧ parseVariableRecord junk' s = .ok (some n', none) ∧
      n.value = .num y ∧ n'.value = .num y' ∧ valueOf y = some z ∧ valueOf y' = some z' ∧ z ≤ z' ∧
      readDecimal (normText n) = some v ∧ readDecimal (normText n') = some v' ∧ v ≤ v' := by
  obtain ⟨x, hx, ha, px⟩ := number_exact r q hq
  obtain ⟨x', hx', ha', px'⟩ := number_exact s q' hq'
  obtain ⟨n, N, hp, hN, _, hv, _⟩ := C69_number r hr hst junk x hx (scaled_known hc hd)
  obtain ⟨n', M, hp', hM, _, hv', _⟩ := C69_number s hs hst' junk' x' hx' (scaled_known hc' hd)
  obtain ⟨N', hN', _, hval⟩ := normalize_value hr (exact_ordinary hq) code d hc hd h x
  rw [hN] at hN'; injection hN' with hN'; injection hN' with hN'; subst hN'
  obtain ⟨M', hM', _, hval'⟩ := normalize_value hs (exact_ordinary hq') code d hc' hd h x'
  rw [hM] at hM'; injection hM' with hM'; injection hM' with hM'; subst hM'
  have e1 : N.value = scaled d.1 (correctionOf r) x := by
    rw [hval]
    unfold scaled
    cases correctionOf r <;> rfl
  have e2 : M.value = scaled d.1 (correctionOf r) x' := by
    rw [hval', hcor]
    unfold scaled
    cases correctionOf s <;> rfl
  obtain ⟨z, w, h1, h2, h3, s1, s2⟩ := scaled_mono (docScale_pos hd) (correctionOf r) ha ha' (dbl_mono hle) px px'
  obtain ⟨v, v', g1, g2, g3⟩ := printed_mono h1 h2 s1 s2 h3
  refine ⟨n, n', _, _, z, w, v, v', hp, hp', hv, hv', by rw [e1]; exact h1, by rw [e2]; exact h2, h3, ?_, ?_, g3⟩
  · unfold normText
    rw [hv]
    dsimp only
    rw [e1]
    exact g1
  · unfold normText
    rw [hv']
    dsimp only
    rw [e2]
    exact g2

/-- C132: equal numbers of the same scale and correction, in whatever coding, have equal normalised values. -/
theorem C132_coding (r s : Record) (hr : Delivered r) (hs : Delivered s) (hst : StorageOk r) (hst' : StorageOk s) (junk junk' : Nat → Byte)
    (q : Rat) (hq : (meaning r).exact = some q) (hq' : (meaning s).exact = some q)
    (code : Nat) (d : Rat × List Byte) (hc : scaleCode r = some code) (hc' : scaleCode s = some code) (hd : docScale code = some d) (h : code ≠ 0x279)
    (hcor : correctionOf r = correctionOf s) :
    ∃ n n' y y' z, parseVariableRecord junk r = .ok (some n, none) ∧ parseVariableRecord junk' s = .ok (some n', none) ∧
      n.value = .num y ∧ n'.value = .num y' ∧ valueOf y = some z ∧ valueOf y' = some z := by
  have hle : q ≤ q := by grind
  obtain ⟨n, n', y, y', z, z', _, _, h1, h2, h3, h4, h5, h6, h7, _⟩ := C132_order r s hr hs hst hst' junk junk' q q hq hq' hle code d hc hc' hd h hcor
  obtain ⟨m, m', x, x', w, w', _, _, k1, k2, k3, k4, k5, k6, k7, _⟩ := C132_order s r hs hr hst' hst junk' junk q q hq' hq hle code d hc' hc hd h hcor.symm
  rw [h1] at k2; injection k2 with k2; injection k2 with k2; injection k2 with k2; subst k2
  rw [h2] at k1; injection k1 with k1; injection k1 with k1; injection k1 with k1; subst k1
  rw [h3] at k4; injection k4 with k4; subst k4
  rw [h4] at k3; injection k3 with k3; subst k3
  rw [h5] at k6; injection k6 with k6
  rw [h6] at k5; injection k5 with k5
  have e : z = z' := by grind
  exact ⟨n, n', y, y', z, h1, h2, h3, h4, h5, by rw [e]; exact h6⟩

/-- C132, for the counters of the fixed data structure (units whose label and table agree, see C38): the larger counter never has the smaller
normalised value, nor the smaller printed number. -/
theorem C132_fixed (status status' unit : Byte) (data data' : List Byte) (hl : 4 ≤ data.length) (hl' : 4 ≤ data'.length)
    (d : Rat × List Byte) (h : unit.toNat % 64 ∉ fixedBad) (hd : readLabel (fixedUnit unit.toNat) = some d)
    (hle : counterValue status data ≤ counterValue status' data') :
    ∃ n n' y y' z z' v v', parseFixedRecord status unit data = .ok (some n) ∧ parseFixedRecord status' unit data' = .ok (some n') ∧
      n.value = .num y ∧ n'.value = .num y' ∧ valueOf y = some z ∧ valueOf y' = some z' ∧ z ≤ z' ∧
      readDecimal (normText n) = some v ∧ readDecimal (normText n') = some v' ∧ v ≤ v' := by
  have hm : ((unit.toNat : Int) % 64).toNat = unit.toNat % 64 := by omega
  obtain ⟨hf, c0, cv, _⟩ := C38_agree_partial unit.toNat (counterValue status data) (.lit 0) _ (by rw [hm]; exact h) hd
  obtain ⟨_, k0, kv, _⟩ := C38_agree_partial unit.toNat (counterValue status' data') (.lit 0) _ (by rw [hm]; exact h) hd
  have h0 : 0 < d.1 := by
    have key : ∀ c : Fin 64, (fixedDoc c.val).all (fun d => decide (0 < d.1)) = true := by decide +kernel
    have := key ⟨unit.toNat % 64, Nat.mod_lt _ (by decide)⟩
    rw [hm] at hf
    dsimp only at this
    rw [hf] at this
    simpa using this
  obtain ⟨z, w, h1, h2, h3, s1, s2⟩ := scaled_mono h0 .none (valueOf_lit (counterValue status data : Rat)) (valueOf_lit (counterValue status' data' : Rat))
    (dbl_mono (Rat.intCast_le_intCast.mpr hle)) (sound_lit _) (sound_lit _)
  obtain ⟨v, v', g1, g2, g3⟩ := printed_mono h1 h2 s1 s2 h3
  refine ⟨_, _, _, _, z, w, v, v', (C72_fixed status unit data hl).2 c0, (C72_fixed status' unit data' hl').2 k0, rfl, rfl, by rw [cv]; exact h1,
    by rw [kv]; exact h2, h3, ?_, ?_, g3⟩
  · unfold normText
    dsimp only
    rw [cv]
    exact g1
  · unfold normText
    dsimp only
    rw [kv]
    exact g2

/-! Concrete cases. -/

/-- A volume of 5 as an 8-bit and of 70000 as a 32-bit number, both with VIF 0x13. -/
def largeVolume : Frame := rsp 0x72 (hdr ++ [0x04, 0x13, 0x70, 0x11, 0x01, 0x00])
def largeItem : Record := mkRec (.value 0x04 [] 0x13 [] [] [0x70, 0x11, 0x01, 0x00])

theorem large_reads : Reads largeVolume hdrHeader [largeItem] :=
  reads_rsp [0x04, 0x13, 0x70, 0x11, 0x01, 0x00] (by decide) [.value 0x04 [] 0x13 [] [] [0x70, 0x11, 0x01, 0x00]] (.cons (dif := 0x04) (difes := []) (vif := 0x13) (text := []) (vifes := []) (data := [0x70, 0x11, 0x01, 0x00]) (bs := []) (rs := [])
    ⟨by decide, by decide, by decide, by decide, by decide, by decide, by decide, by decide, by decide,
      by unfold DataFits; rw [if_neg (by decide)]; rfl⟩ .nil)

example := C132_order volumeItem.1 largeItem volume_delivered (large_reads.delivered _ (by simp)) volume_storage ⟨by decide, by decide +kernel⟩
  (fun _ => 7) (fun _ => 9) 5 70000 (by decide +kernel) (by decide +kernel) (by decide +kernel) 0x13 ((10 : Rat) ^ (-3 : Int), cs! "m^3") (by decide +kernel)
  (by decide +kernel) (by decide +kernel) (by decide) (by decide +kernel)
example := C132_coding volumeItem.1 volumeItem.1 volume_delivered volume_delivered volume_storage volume_storage
  (fun _ => 7) (fun _ => 9) 5 (by decide +kernel) (by decide +kernel) 0x13 ((10 : Rat) ^ (-3 : Int), cs! "m^3") (by decide +kernel)
  (by decide +kernel) (by decide +kernel) (by decide) rfl
-- five litres in the status of packed decimals, 255 litres in that of binary numbers
example := C132_fixed 0 0x80 0x29 [5, 0, 0, 0] [255, 0, 0, 0] (by decide) (by decide) ((10 : Rat) ^ (-3 : Int), cs! "m^3") (by decide +kernel)
  (by decide +kernel) (by decide +kernel)
example : readDecimal (cs! "-1234.560000") = some (-123456 / 100) ∧ readDecimal (cs! "70.000000") = some 70 ∧ readDecimal (cs! "5") = none := by decide +kernel
/-- Distinct large numbers can share one normalised value: the order is kept, not the distance. -/
example : dbl (2 ^ 53) = dbl (2 ^ 53 + 1) := by decide +kernel

end Mbus
