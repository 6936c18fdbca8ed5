import Verif.Model.Stamp
import Verif.Spec.Stamp
import Verif.Lemmas.Digits
/- Lemmas on time stamps: the calendar computation and the order of the texts. -/
namespace Mbus
open Spec

/-- Days from 1970-01-01 to the first day of the year, as in the POSIX formula. -/
def yearStart (y : Nat) : Int :=
  ((y : Int) - 1970) * 365 + ((y : Int) - 1969) / 4 - ((y : Int) - 1901) / 100 + ((y : Int) - 1601) / 400

theorem gmLeap_iff (y : Nat) : gmLeap y = true ↔ Leap y := by
  unfold gmLeap Leap
  simp
  omega

theorem gmYearDays_eq (y : Nat) : gmYearDays y = if Leap y then 366 else 365 := by
  unfold gmYearDays
  by_cases h : Leap y
  · rw [if_pos h, if_pos ((gmLeap_iff y).mpr h)]
  · rw [if_neg h, if_neg (fun e => h ((gmLeap_iff y).mp e))]

theorem gmMonths_eq (y : Nat) : gmMonths y = (List.range 12).map fun i => monthLength y (i + 1) := by
  have e : (List.range 12).map (fun i => monthLength y (i + 1)) = [31, if Leap y then 29 else 28, 31, 30, 31, 30, 31, 31, 30, 31, 30, 31] := rfl
  rw [e]
  unfold gmMonths
  by_cases h : Leap y
  · rw [if_pos h, if_pos ((gmLeap_iff y).mpr h)]
  · rw [if_neg h, if_neg (fun e => h ((gmLeap_iff y).mp e))]

theorem yearStart_succ (y : Nat) (_h : 1970 ≤ y) : yearStart (y + 1) = yearStart y + gmYearDays y := by
  rw [gmYearDays_eq]
  unfold yearStart
  by_cases hl : Leap y
  · rw [if_pos hl]
    unfold Leap at hl
    omega
  · rw [if_neg hl]
    unfold Leap at hl
    omega

theorem yearStart_mono (y z : Nat) (h : 1970 ≤ y) (hz : y ≤ z) : yearStart y ≤ yearStart z := by
  induction hz with
  | refl => exact Int.le_refl _
  | step hm ih =>
    rename_i m
    have := yearStart_succ m (Nat.le_trans h hm)
    have := gmYearDays_pos m
    rw [Nat.succ_eq_add_one]
    omega

theorem gmYear_spec (y days : Nat) (h : 1970 ≤ y) :
    y ≤ (gmYear y days).1 ∧ (gmYear y days).2 < gmYearDays (gmYear y days).1 ∧
      yearStart (gmYear y days).1 + (gmYear y days).2 = yearStart y + days := by
  induction days using Nat.strongRecOn generalizing y with
  | ind days ih =>
    rw [gmYear]
    split
    · next hd => exact ⟨Nat.le_refl _, hd, rfl⟩
    · next hd =>
      have hp := gmYearDays_pos y
      obtain ⟨h1, h2, h3⟩ := ih (days - gmYearDays y) (by omega) (y + 1) (by omega)
      refine ⟨Nat.le_trans (Nat.le_succ y) h1, h2, ?_⟩
      dsimp only
      rw [h3, yearStart_succ y h]
      omega

theorem gmMonth_spec (ms : List Nat) (m day : Nat) (h : day < ms.sum) :
    ∃ k, k < ms.length ∧ (gmMonth ms m day).1 = m + k ∧ (gmMonth ms m day).2 < ms.getD k 0 ∧ (ms.take k).sum + (gmMonth ms m day).2 = day := by
  induction ms generalizing m day with
  | nil => simp at h
  | cons n ns ih =>
    rw [gmMonth]
    split
    · next hd => exact ⟨0, by simp, rfl, by simpa using hd, by simp⟩
    · next hd =>
      rw [List.sum_cons] at h
      obtain ⟨k, h1, h2, h3, h4⟩ := ih (m + 1) (day - n) (by omega)
      refine ⟨k + 1, by simpa using h1, by omega, by simpa using h3, ?_⟩
      rw [List.take_succ_cons, List.sum_cons]
      omega

theorem gmMonths_sum (y : Nat) : (gmMonths y).sum = gmYearDays y := by
  unfold gmMonths gmYearDays
  split <;> rfl

/-- The broken-down time of `gmtime` as a civil date. -/
theorem gmtime_civil (t : Nat) : ∃ c : Civil, c.Valid ∧ c.seconds = t ∧
    gmtime t = if c.year - 1900 < 2 ^ 31 then
      some { sec := c.sec, min := c.min, hour := c.hour, mday := c.day, mon := (c.month : Int) - 1, year := (c.year : Int) - 1900, isdst := 0 }
    else none := by
  obtain ⟨h1, h2, h3⟩ := gmYear_spec 1970 (t / 86400) (Nat.le_refl _)
  unfold gmtime
  generalize gmYear 1970 (t / 86400) = y at *
  obtain ⟨y, d⟩ := y
  dsimp only at *
  obtain ⟨k, k1, k2, k3, k4⟩ := gmMonth_spec (gmMonths y) 0 d (by rw [gmMonths_sum]; exact h2)
  generalize gmMonth (gmMonths y) 0 d = m at *
  obtain ⟨m, r⟩ := m
  dsimp only at *
  rw [Nat.zero_add] at k2
  subst k2
  rw [gmMonths_eq, List.length_map, List.length_range] at k1
  rw [gmMonths_eq, List.getD_eq_getElem?_getD, List.getElem?_map, List.getElem?_range k1] at k3
  simp only [Option.map_some, Option.getD_some] at k3
  rw [gmMonths_eq, ← List.map_take, List.take_range, Nat.min_eq_left (Nat.le_of_lt k1)] at k4
  refine ⟨⟨y, m + 1, r + 1, t / 3600 % 24, t / 60 % 60, t % 60⟩, ⟨h1, ?_, ?_, ?_, ?_, ?_⟩, ?_, ?_⟩
  · dsimp only; omega
  · dsimp only; omega
  · dsimp only; omega
  · dsimp only; omega
  · dsimp only; omega
  · unfold Civil.seconds daysBefore
    dsimp only
    rw [Nat.add_sub_cancel]
    generalize ((List.range m).map fun i => monthLength y (i + 1)).sum = b at *
    unfold yearStart at h3
    omega
  · dsimp only
    congr 3 <;> simp
    

theorem dec2_decW (n : Nat) : dec2 n = decW 2 n := by
  simp [dec2, decW]

theorem dec4_decW (n : Nat) : dec4 n = decW 4 n := by
  simp [dec4, dec2, decW, Nat.div_div_eq_div_mul]

theorem pad2 (n : Nat) (h : n < 100) : padZero 2 (fmtInt n) = dec2 n := by
  rw [dec2_decW, ← padZero_dec 2 n (by decide) h]
  unfold fmtInt
  rw [if_neg (by omega), Int.natAbs_natCast]

theorem fmt4 (n : Nat) (h : 1000 ≤ n) (h' : n < 10000) : fmtInt n = dec4 n := by
  rw [dec4_decW, ← padZero_dec 4 n (by decide) h']
  have hl : (decDigits n).length = 4 := by
    rw [decDigits, dif_neg (by omega), decDigits, dif_neg (by omega), decDigits, dif_neg (by omega), decDigits, dif_pos (by omega)]
    rfl
  unfold fmtInt padZero
  rw [if_neg (by omega), Int.natAbs_natCast, hl]
  rfl

theorem monthLength_le (y m : Nat) : monthLength y m ≤ 31 := by
  unfold monthLength
  split
  · split <;> decide
  all_goals decide

theorem civil_format (sep : Byte) (c : Civil) (h : c.Valid) (hy : c.year < 10000) :
    stampFormat sep { sec := c.sec, min := c.min, hour := c.hour, mday := c.day, mon := (c.month : Int) - 1, year := (c.year : Int) - 1900, isdst := 0 }
      = c.text sep := by
  obtain ⟨h1, h2, h3, h4, h5, h6⟩ := h
  have := monthLength_le c.year c.month
  unfold stampFormat Civil.text
  dsimp only
  rw [Int.sub_add_cancel, Int.sub_add_cancel, fmt4 _ (by omega) hy, pad2 _ (by omega), pad2 _ (by omega), pad2 _ (by omega), pad2 _ (by omega), pad2 _ (by omega)]

theorem civil_text_length (sep : Byte) (c : Civil) : (c.text sep).length = 20 := by
  simp [Civil.text, dec4, dec2]

theorem digit_toNat (n : Nat) : (UInt8.ofNat (48 + n % 10)).toNat = 48 + n % 10 := by
  rw [UInt8.toNat_ofNat']; omega

/-- The characters of a time stamp are digits, `-`, `:`, `Z` and the separator. -/
theorem civil_text_chars (sep : Byte) (c : Civil) (x : Byte) (h : x ∈ c.text sep) :
    x = sep ∨ x = 45 ∨ x = 58 ∨ x = 90 ∨ (48 ≤ x.toNat ∧ x.toNat ≤ 57) := by
  have hd : ∀ n, 48 ≤ (UInt8.ofNat (48 + n % 10)).toNat ∧ (UInt8.ofNat (48 + n % 10)).toNat ≤ 57 := by
    intro n; rw [digit_toNat]; omega
  simp only [Civil.text, dec4, dec2, List.mem_append, List.mem_cons, List.not_mem_nil, or_false] at h
  rcases h with h | h
  · rcases h with h | h
    · rcases h with h | h
      · rcases h with h | h
        · rcases h with h | h
          · rcases h with h | h
            · rcases h with h | h
              · rcases h with h | h
                · rcases h with h | h
                  · rcases h with h | h
                    · rcases h with h | h
                      · rcases h with (h | h) | (h | h) <;> (subst h; exact .inr (.inr (.inr (.inr (hd _)))))
                      · exact .inr (.inl h)
                    · rcases h with h | h <;> (subst h; exact .inr (.inr (.inr (.inr (hd _)))))
                  · exact .inr (.inl h)
                · rcases h with h | h <;> (subst h; exact .inr (.inr (.inr (.inr (hd _)))))
              · exact .inl h
            · rcases h with h | h <;> (subst h; exact .inr (.inr (.inr (.inr (hd _)))))
          · exact .inr (.inr (.inl h))
        · rcases h with h | h <;> (subst h; exact .inr (.inr (.inr (.inr (hd _)))))
      · exact .inr (.inr (.inl h))
    · rcases h with h | h <;> (subst h; exact .inr (.inr (.inr (.inr (hd _)))))
  · exact .inr (.inr (.inr (.inl h)))

/-! ### order -/

theorem lt_append_left {a : List Byte} (b c : List Byte) (h : b < c) : a ++ b < a ++ c := by
  induction a with
  | nil => exact h
  | cons x a ih => exact List.Lex.cons ih

theorem lt_append {a b : List Byte} (c d : List Byte) (hl : a.length = b.length) (h : a < b) : a ++ c < b ++ d := by
  induction h with
  | nil => simp at hl
  | rel h => exact List.Lex.rel h
  | cons _ ih => exact List.Lex.cons (ih (by simpa using hl))

theorem digit_lt {m n : Nat} (h : m % 10 < n % 10) : UInt8.ofNat (48 + m % 10) < UInt8.ofNat (48 + n % 10) := by
  rw [UInt8.lt_iff_toNat_lt, digit_toNat, digit_toNat]; omega

theorem dec2_lt {m n : Nat} (hn : n < 100) (h : m < n) : dec2 m < dec2 n := by
  unfold dec2
  by_cases e : m / 10 % 10 = n / 10 % 10
  · rw [e]
    exact List.Lex.cons (List.Lex.rel (digit_lt (by omega)))
  · exact List.Lex.rel (digit_lt (by omega))

theorem dec2_length (n : Nat) : (dec2 n).length = 2 := rfl

theorem dec4_lt {m n : Nat} (hn : n < 10000) (h : m < n) : dec4 m < dec4 n := by
  unfold dec4
  have e1 : dec2 m = dec2 (m % 100) := by unfold dec2; congr 3 <;> omega
  have e2 : dec2 n = dec2 (n % 100) := by unfold dec2; congr 3 <;> omega
  by_cases e : m / 100 = n / 100
  · rw [e, e1, e2]
    exact lt_append_left _ _ (dec2_lt (by omega) (by omega))
  · exact lt_append _ _ rfl (dec2_lt (by omega) (by omega))

/-- Days before a month, as the sum of the months before. -/
theorem daysBefore_step (y m : Nat) (h : 1 ≤ m) : daysBefore y (m + 1) = daysBefore y m + monthLength y m := by
  unfold daysBefore
  obtain ⟨k, rfl⟩ : ∃ k, m = k + 1 := ⟨m - 1, by omega⟩
  rw [Nat.add_sub_cancel, Nat.add_sub_cancel, List.range_succ, List.map_append, List.sum_append]
  simp

theorem daysBefore_mono (y m n : Nat) (h : 1 ≤ m) (hn : m ≤ n) : daysBefore y m ≤ daysBefore y n := by
  induction hn with
  | refl => exact Nat.le_refl _
  | step hm ih =>
    rename_i k
    rw [Nat.succ_eq_add_one, daysBefore_step y k (Nat.le_trans h hm)]
    exact Nat.le_trans ih (Nat.le_add_right ..)

theorem daysBefore_year (y : Nat) : daysBefore y 13 = gmYearDays y := by
  rw [← gmMonths_sum, gmMonths_eq]
  rfl

theorem civil_seconds (c : Civil) : c.seconds =
    (yearStart c.year + daysBefore c.year c.month + ((c.day : Int) - 1)) * 86400 + ((c.hour : Int) * 3600 + c.min * 60 + c.sec) := by
  unfold Civil.seconds yearStart
  omega

/-- An earlier time has a smaller text. -/
theorem civil_text_lt (sep : Byte) (a b : Civil) (ha : a.Valid) (hb : b.Valid) (hy : b.year < 10000) (h : a.seconds < b.seconds) :
    a.text sep < b.text sep := by
  rw [civil_seconds, civil_seconds] at h
  obtain ⟨a1, a2, a3, a4, a5, a6⟩ := ha
  obtain ⟨b1, b2, b3, b4, b5, b6⟩ := hb
  have hml := monthLength_le b.year b.month
  have sa := daysBefore_step a.year a.month a2.1
  have sb := daysBefore_step b.year b.month b2.1
  have da := daysBefore_mono a.year (a.month + 1) 13 (by omega) (by omega)
  have db := daysBefore_mono b.year (b.month + 1) 13 (by omega) (by omega)
  rw [daysBefore_year] at da db
  unfold Civil.text
  simp only [List.append_assoc]
  by_cases ey : a.year = b.year
  · rw [ey] at sa da a3 h ⊢
    refine lt_append_left _ _ (lt_append_left _ _ ?_)
    by_cases em : a.month = b.month
    · rw [em] at sa h ⊢
      refine lt_append_left _ _ (lt_append_left _ _ ?_)
      by_cases ed : a.day = b.day
      · rw [ed] at h ⊢
        refine lt_append_left _ _ (lt_append_left _ _ ?_)
        by_cases eh : a.hour = b.hour
        · rw [eh] at h ⊢
          refine lt_append_left _ _ (lt_append_left _ _ ?_)
          by_cases ei : a.min = b.min
          · rw [ei] at h ⊢
            refine lt_append_left _ _ (lt_append_left _ _ ?_)
            exact lt_append _ _ rfl (dec2_lt (by omega) (by omega))
          · exact lt_append _ _ rfl (dec2_lt (by omega) (by omega))
        · exact lt_append _ _ rfl (dec2_lt (by omega) (by omega))
      · exact lt_append _ _ rfl (dec2_lt (by omega) (by omega))
    · refine lt_append _ _ rfl (dec2_lt (by omega) ?_)
      apply Nat.lt_of_not_le
      intro hle
      have := daysBefore_mono b.year (b.month + 1) a.month (by omega) (by omega)
      omega
  · refine lt_append _ _ rfl (dec4_lt hy ?_)
    apply Nat.lt_of_not_le
    intro hle
    have := yearStart_mono (b.year + 1) a.year (by omega) (by omega)
    have := yearStart_succ b.year b1
    omega

/-- The last second of 9999 and the years. -/
theorem year_lt (c : Civil) (h : c.Valid) : c.year < 10000 ↔ c.seconds < endOf9999 := by
  rw [civil_seconds]
  obtain ⟨a1, a2, a3, a4, a5, a6⟩ := h
  have sa := daysBefore_step c.year c.month a2.1
  have da := daysBefore_mono c.year (c.month + 1) 13 (by omega) (by omega)
  rw [daysBefore_year] at da
  have e : yearStart 10000 * 86400 = endOf9999 := by decide
  constructor
  · intro h
    have := yearStart_mono (c.year + 1) 10000 (by omega) (by omega)
    have := yearStart_succ c.year a1
    omega
  · intro h
    apply Nat.lt_of_not_le
    intro hle
    have := yearStart_mono 10000 c.year (by omega) hle
    omega

theorem year_le (a b : Civil) (ha : a.Valid) (hb : b.Valid) (h : a.seconds ≤ b.seconds) : a.year ≤ b.year := by
  rw [civil_seconds, civil_seconds] at h
  obtain ⟨a1, a2, a3, a4, a5, a6⟩ := ha
  obtain ⟨b1, b2, b3, b4, b5, b6⟩ := hb
  have sb := daysBefore_step b.year b.month b2.1
  have db := daysBefore_mono b.year (b.month + 1) 13 (by omega) (by omega)
  rw [daysBefore_year] at db
  apply Nat.le_of_not_lt
  intro hlt
  have := yearStart_mono (b.year + 1) a.year (by omega) (by omega)
  have := yearStart_succ b.year b1
  omega

theorem month_le (a b : Civil) (ha : a.Valid) (hb : b.Valid) (hy : a.year = b.year) (h : a.seconds ≤ b.seconds) : a.month ≤ b.month := by
  rw [civil_seconds, civil_seconds] at h
  obtain ⟨a1, a2, a3, a4, a5, a6⟩ := ha
  obtain ⟨b1, b2, b3, b4, b5, b6⟩ := hb
  have sb := daysBefore_step b.year b.month b2.1
  rw [hy] at h
  apply Nat.le_of_not_lt
  intro hlt
  have := daysBefore_mono b.year (b.month + 1) a.month (by omega) (by omega)
  omega

theorem civil_inj (a b : Civil) (ha : a.Valid) (hb : b.Valid) (h : a.seconds = b.seconds) : a = b := by
  have ey := Nat.le_antisymm (year_le a b ha hb (Int.le_of_eq h)) (year_le b a hb ha (Int.le_of_eq h.symm))
  have em := Nat.le_antisymm (month_le a b ha hb ey (Int.le_of_eq h)) (month_le b a hb ha ey.symm (Int.le_of_eq h.symm))
  rw [civil_seconds, civil_seconds, ey, em] at h
  obtain ⟨_, _, _, a4, a5, a6⟩ := ha
  obtain ⟨_, _, _, b4, b5, b6⟩ := hb
  obtain ⟨y, m, d, hh, mi, s⟩ := a
  obtain ⟨y', m', d', hh', mi', s'⟩ := b
  dsimp only at *
  subst ey em
  have ed : d = d' := by omega
  subst ed
  have eh : hh = hh' := by omega
  subst eh
  have ei : mi = mi' := by omega
  subst ei
  have es : s = s' := by omega
  subst es
  rfl

/-- The first second of the year that `tm_year` cannot hold. -/
theorem year_int (c : Civil) (h : c.Valid) : c.year - 1900 < 2 ^ 31 ↔ c.seconds < endOfYears := by
  rw [civil_seconds]
  obtain ⟨a1, a2, a3, a4, a5, a6⟩ := h
  have sa := daysBefore_step c.year c.month a2.1
  have da := daysBefore_mono c.year (c.month + 1) 13 (by omega) (by omega)
  rw [daysBefore_year] at da
  have e : yearStart 2147485548 * 86400 = endOfYears := by decide
  constructor
  · intro h
    have := yearStart_mono (c.year + 1) 2147485548 (by omega) (by omega)
    have := yearStart_succ c.year a1
    omega
  · intro h
    apply Nat.lt_of_not_le
    intro hle
    have := yearStart_mono 2147485548 c.year (by omega) (by omega)
    omega

theorem decDigits_length5 (n : Nat) (h : 10000 ≤ n) : 5 ≤ (decDigits n).length := by
  have hp : ∀ k, 1 ≤ (decDigits k).length := by
    intro k
    rw [decDigits]
    split <;> simp
  rw [decDigits, dif_neg (by omega), decDigits, dif_neg (by omega), decDigits, dif_neg (by omega), decDigits, dif_neg (by omega)]
  have := hp (n / 10 / 10 / 10 / 10)
  simp only [List.length_append, List.length_cons, List.length_nil]
  omega

theorem pad2_length (l : List Byte) : 2 ≤ (padZero 2 l).length := by
  unfold padZero; simp; omega

/-- From year 10000 on the text is too long. -/
theorem format_long (sep : Byte) (t : Tm) (y : Nat) (hy : t.year = (y : Int) - 1900) (h : 10000 ≤ y) : 21 ≤ (stampFormat sep t).length := by
  have h5 := decDigits_length5 y h
  have e : fmtInt (t.year + 1900) = decDigits y := by
    rw [hy, Int.sub_add_cancel]
    unfold fmtInt
    rw [if_neg (by omega), Int.natAbs_natCast]
  unfold stampFormat
  rw [e]
  have p1 := pad2_length (fmtInt (t.mon + 1))
  have p2 := pad2_length (fmtInt t.mday)
  have p3 := pad2_length (fmtInt t.hour)
  have p4 := pad2_length (fmtInt t.min)
  have p5 := pad2_length (fmtInt t.sec)
  simp only [List.length_append, List.length_cons, List.length_nil]
  omega

theorem civil_text_nonul (sep : Byte) (hs : sep ≠ 0) (c : Civil) : (0 : Byte) ∉ c.text sep := by
  intro h
  rcases civil_text_chars sep c 0 h with h | h | h | h | h
  · exact hs h.symm
  · revert h; decide
  · revert h; decide
  · revert h; decide
  · revert h; decide

end Mbus
