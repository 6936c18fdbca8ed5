import Verif.Spec.DateOrder
import Verif.Props.Stamp
/-
Property theorems C135: the order of the date texts.  `DayBefore`, `SameDay`, `TimeBefore`, `SameTime`, `dayOf`, `timeOf`, `TimeInvalid` are from
Spec/DateOrder.lean.
-/
namespace Mbus
open Spec

/-! ### texts -/

theorem dayBefore_text {a b : Tm} (ha : TmOk a) (hb : TmOk b) (h : DayBefore a b) (x y : List Byte) : dateText a ++ x < dateText b ++ y := by
  obtain ⟨-, -, -, -, -, -, a1, a2, a3, a4, a5, a6⟩ := ha
  obtain ⟨-, -, -, -, -, -, b1, b2, b3, b4, b5, b6⟩ := hb
  unfold dateText
  simp only [List.append_assoc]
  rcases h with h | ⟨ey, h | ⟨em, h⟩⟩
  · exact lt_append _ _ rfl (dec4_lt (by omega) (by omega))
  · rw [ey]
    exact lt_append_left _ _ (lt_append_left _ _ (lt_append _ _ rfl (dec2_lt (by omega) (by omega))))
  · rw [ey, em]
    exact lt_append_left _ _ (lt_append_left _ _ (lt_append_left _ _ (lt_append_left _ _ (lt_append _ _ rfl (dec2_lt (by omega) (by omega))))))

theorem sameDay_text {a b : Tm} (h : SameDay a b) : dateText a = dateText b := by
  unfold dateText
  rw [h.1, h.2.1, h.2.2]

theorem dateTimeText_split (t : Tm) : dateTimeText t = dateText t ++ (cs! "T" ++ (dec2 t.hour.toNat ++ (cs! ":" ++ (dec2 t.min.toNat ++ (cs! ":" ++ dec2 t.sec.toNat))))) := by
  simp only [dateTimeText, List.append_assoc]

theorem timeBefore_text {a b : Tm} (ha : TmOk a) (hb : TmOk b) (h : TimeBefore a b) (x y : List Byte) : dateTimeText a ++ x < dateTimeText b ++ y := by
  rw [dateTimeText_split, dateTimeText_split, List.append_assoc, List.append_assoc]
  rcases h with h | ⟨hd, h⟩
  · exact dayBefore_text ha hb h _ _
  · obtain ⟨a1, a2, a3, a4, a5, a6, -⟩ := ha
    obtain ⟨b1, b2, b3, b4, b5, b6, -⟩ := hb
    rw [sameDay_text hd]
    simp only [List.append_assoc]
    refine lt_append_left _ _ (lt_append_left _ _ ?_)
    rcases h with h | ⟨eh, h | ⟨em, h⟩⟩
    · exact lt_append _ _ rfl (dec2_lt (by omega) (by omega))
    · rw [eh]
      exact lt_append_left _ _ (lt_append_left _ _ (lt_append _ _ rfl (dec2_lt (by omega) (by omega))))
    · rw [eh, em]
      exact lt_append_left _ _ (lt_append_left _ _ (lt_append_left _ _ (lt_append_left _ _ (lt_append _ _ rfl (dec2_lt (by omega) (by omega))))))

theorem sameTime_text {a b : Tm} (h : SameTime a b) : dateTimeText a = dateTimeText b := by
  unfold dateTimeText
  rw [sameDay_text h.1, h.2.1, h.2.2.1, h.2.2.2]

/-- Three cases, each with its text relation, give the equivalences. -/
theorem order_iff {s t : List Byte} {p q r : Prop} (h : p ∨ q ∨ r) (h1 : p → s < t) (h2 : q → s = t) (h3 : r → t < s)
    (x12 : p → ¬ q) (x13 : p → ¬ r) (x23 : q → ¬ r) : (s < t ↔ p) ∧ (s = t ↔ q) := by
  rcases h with h | h | h
  · have hl := h1 h
    exact ⟨iff_of_true hl h, iff_of_false (fun e => by rw [e] at hl; exact List.lt_irrefl _ hl) (x12 h)⟩
  · have e := h2 h
    exact ⟨iff_of_false (by rw [e]; exact List.lt_irrefl _) (fun h' => x12 h' h), iff_of_true e h⟩
  · have hl := h3 h
    exact ⟨iff_of_false (fun h' => List.lt_irrefl _ (List.lt_trans hl h')) (fun h' => x13 h' h),
      iff_of_false (fun e => by rw [e] at hl; exact List.lt_irrefl _ hl) (fun h' => x23 h' h)⟩

theorem dateText_order {a b : Tm} (ha : TmOk a) (hb : TmOk b) : (dateText a < dateText b ↔ DayBefore a b) ∧ (dateText a = dateText b ↔ SameDay a b) := by
  refine order_iff (r := DayBefore b a) ?_ (fun h => ?_) sameDay_text (fun h => ?_) ?_ ?_ ?_
  · unfold DayBefore SameDay; omega
  · simpa using dayBefore_text ha hb h [] []
  · simpa using dayBefore_text hb ha h [] []
  · unfold DayBefore SameDay; omega
  · unfold DayBefore; omega
  · unfold DayBefore SameDay; omega

theorem dateTimeText_order {a b : Tm} (ha : TmOk a) (hb : TmOk b) (z : List Byte) :
    (dateTimeText a ++ z < dateTimeText b ++ z ↔ TimeBefore a b) ∧ (dateTimeText a ++ z = dateTimeText b ++ z ↔ SameTime a b) := by
  refine order_iff (r := TimeBefore b a) ?_ (fun h => timeBefore_text ha hb h z z) (fun h => by rw [sameTime_text h]) (fun h => timeBefore_text hb ha h z z) ?_ ?_ ?_
  · unfold TimeBefore SameTime DayBefore SameDay; omega
  · unfold TimeBefore SameTime DayBefore SameDay; omega
  · unfold TimeBefore DayBefore SameDay; omega
  · unfold TimeBefore SameTime DayBefore SameDay; omega

/-! ### fields -/

theorem bits_lt (w lo len : Nat) : bits w lo len < 2 ^ len := Nat.mod_lt _ (Nat.pow_pos (by decide))

theorem dateG_ok (w : Nat) : TmOk (dateG w) := by
  have h1 := bits_lt w 0 5
  have h2 := bits_lt w 8 4
  have h3 := bits_lt w 5 3
  have h4 := bits_lt w 12 4
  unfold TmOk dateG
  dsimp only
  omega

theorem zero_ok : TmOk Tm.zero := by unfold TmOk; decide

theorem dateF_ok (w : Nat) : TmOk (dateF w) := by
  unfold dateF
  split
  · exact zero_ok
  · have h1 := bits_lt w 0 6
    have h2 := bits_lt w 8 5
    have h3 := bits_lt w 16 5
    have h4 := bits_lt w 24 4
    have h5 := bits_lt w 21 3
    have h6 := bits_lt w 28 4
    have h7 := bits_lt w 13 2
    unfold TmOk
    dsimp only
    split <;> omega

theorem dateI_ok (w : Nat) : TmOk (dateI w) := by
  unfold dateI
  split
  · exact zero_ok
  · have h1 := bits_lt w 0 6
    have h2 := bits_lt w 8 6
    have h3 := bits_lt w 16 5
    have h4 := bits_lt w 24 5
    have h5 := bits_lt w 32 4
    have h6 := bits_lt w 29 3
    have h7 := bits_lt w 36 4
    unfold TmOk
    dsimp only
    omega

theorem timeOf_ok (r : Record) : TmOk (timeOf r) := by
  unfold timeOf
  split
  · exact dateF_ok _
  · exact dateI_ok _

/-! ### C135 -/

/-- C135 for dates: character by character the texts of two date records compare as their days do, in `mbus_data_record_value` and in the value
string of the normalised record. -/
theorem C135_dates (r q : Record) (hr : Delivered r) (hq : Delivered q) (dr : IsDate r) (dq : IsDate q) (buff : List Byte) (hb : buff.length = 768)
    (junk junk' : Nat → Byte) :
    ∃ s t, recordValue buff r = .ok s ∧ recordValue buff q = .ok t ∧ (s < t ↔ DayBefore (dayOf r) (dayOf q)) ∧ (s = t ↔ SameDay (dayOf r) (dayOf q)) ∧
      ∃ o o', variableValueDecode junk r = .ok o ∧ variableValueDecode junk' q = .ok o' ∧ o.str = some (s ++ [0]) ∧ o'.str = some (t ++ [0]) := by
  obtain ⟨h1, _, o, h2, h3, _⟩ := C19_date r hr dr buff hb junk
  obtain ⟨h4, _, o', h5, h6, _⟩ := C19_date q hq dq buff hb junk'
  have := dateText_order (dateG_ok (leNat (r.data.bytes.take 2))) (dateG_ok (leNat (q.data.bytes.take 2)))
  exact ⟨_, _, h1, h4, this.1, this.2, o, o', h2, h5, h3, h6⟩

/-- C135 for date and time (4 or 6 bytes, in any combination); the normalised value strings have a `Z` after the text. -/
theorem C135_times (r q : Record) (hr : Delivered r) (hq : Delivered q) (dr : IsDateTime r) (dq : IsDateTime q) (buff : List Byte) (hb : buff.length = 768)
    (junk junk' : Nat → Byte) :
    (∃ s t, recordValue buff r = .ok s ∧ recordValue buff q = .ok t ∧ (s < t ↔ TimeBefore (timeOf r) (timeOf q)) ∧ (s = t ↔ SameTime (timeOf r) (timeOf q))) ∧
    ∃ o o' s t, variableValueDecode junk r = .ok o ∧ variableValueDecode junk' q = .ok o' ∧ o.str = some (s ++ [0]) ∧ o'.str = some (t ++ [0]) ∧
      (s < t ↔ TimeBefore (timeOf r) (timeOf q)) ∧ (s = t ↔ SameTime (timeOf r) (timeOf q)) := by
  obtain ⟨h1, _, o, h2, h3, _⟩ := C19_date_time r hr dr buff hb junk
  obtain ⟨h4, _, o', h5, h6, _⟩ := C19_date_time q hq dq buff hb junk'
  have k := dateTimeText_order (timeOf_ok r) (timeOf_ok q) []
  have z := dateTimeText_order (timeOf_ok r) (timeOf_ok q) (cs! "Z")
  rw [List.append_nil, List.append_nil] at k
  exact ⟨⟨_, _, h1, h4, k.1, k.2⟩, o, o', _, _, h2, h5, h3, h6, z.1, z.2⟩

/-- C135, mixed: the text of a day comes before the texts of all times of that day and of later days, and after those of all times of earlier
days. -/
theorem C135_mixed (r q : Record) (hr : Delivered r) (hq : Delivered q) (dr : IsDate r) (dq : IsDateTime q) (buff : List Byte) (hb : buff.length = 768) :
    ∃ s t, recordValue buff r = .ok s ∧ recordValue buff q = .ok t ∧ (s < t ↔ ¬ DayBefore (timeOf q) (dayOf r)) ∧ (t < s ↔ DayBefore (timeOf q) (dayOf r)) := by
  obtain ⟨h1, _⟩ := C19_date r hr dr buff hb (fun _ => 0)
  obtain ⟨h4, _⟩ := C19_date_time q hq dq buff hb (fun _ => 0)
  refine ⟨dateText (dayOf r), dateTimeText (timeOf q), h1, h4, ?_⟩
  have a : TmOk (dayOf r) := dateG_ok _
  have b := timeOf_ok q
  generalize dayOf r = x at *
  generalize timeOf q = y at *
  by_cases h : DayBefore y x
  · have hl := dayBefore_text b a h (cs! "T" ++ (dec2 y.hour.toNat ++ (cs! ":" ++ (dec2 y.min.toNat ++ (cs! ":" ++ dec2 y.sec.toNat))))) []
    rw [List.append_nil, ← dateTimeText_split] at hl
    exact ⟨iff_of_false (fun h' => List.lt_irrefl _ (List.lt_trans hl h')) (not_not_intro h), iff_of_true hl h⟩
  · have hl : dateText x < dateTimeText y := by
      rw [dateTimeText_split]
      have : DayBefore x y ∨ SameDay x y := by unfold DayBefore SameDay at *; omega
      rcases this with h' | h'
      · have := dayBefore_text a b h' [] (cs! "T" ++ (dec2 y.hour.toNat ++ (cs! ":" ++ (dec2 y.min.toNat ++ (cs! ":" ++ dec2 y.sec.toNat)))))
        rwa [List.append_nil] at this
      · rw [sameDay_text h']
        have := lt_append_left (a := dateText y) [] (cs! "T" ++ (dec2 y.hour.toNat ++ (cs! ":" ++ (dec2 y.min.toNat ++ (cs! ":" ++ dec2 y.sec.toNat))))) List.Lex.nil
        rwa [List.append_nil] at this
    exact ⟨iff_of_true hl h, iff_of_false (fun h' => List.lt_irrefl _ (List.lt_trans hl h')) h⟩

/-- A date text tells the two bytes of the record: all 16 bits are shown. -/
theorem C135_bytes (r q : Record) (hr : Delivered r) (hq : Delivered q) (dr : IsDate r) (dq : IsDate q) (buff : List Byte) (hb : buff.length = 768) :
    recordValue buff r = recordValue buff q ↔ r.data.bytes.take 2 = q.data.bytes.take 2 := by
  obtain ⟨s, t, h1, h2, _, h3, _⟩ := C135_dates r q hr hq dr dq buff hb (fun _ => 0) (fun _ => 0)
  rw [h1, h2, Except.ok.injEq, h3]
  constructor
  · intro h
    have l : ∀ r : Record, (r.data.bytes.take 2).length = 2 := fun r => by rw [List.length_take, r.data.size_eq]; rfl
    refine leNat_inj _ _ (by rw [l, l]) ?_
    have b : ∀ r : Record, leNat (r.data.bytes.take 2) < 65536 := fun r => by
      have := leNat_lt (r.data.bytes.take 2)
      rw [l] at this
      exact this
    have br := b r
    have bq := b q
    unfold SameDay dayOf dateG bits at h
    dsimp only at h
    omega
  · intro h
    unfold dayOf
    rw [h]
    exact ⟨rfl, rfl, rfl⟩

/-- A time that the meter marked as invalid - and only such a time - is shown as the beginning of 1900; valid times are shown as later times, from
1981 on. -/
theorem C135_invalid (r : Record) (hr : Delivered r) (dr : IsDateTime r) (buff : List Byte) (hb : buff.length = 768) :
    (recordValue buff r = .ok (cs! "1900-01-00T00:00:00") ↔ TimeInvalid r) ∧ (¬ TimeInvalid r → 81 ≤ (timeOf r).year) := by
  obtain ⟨h1, _⟩ := C19_date_time r hr dr buff hb (fun _ => 0)
  have e : cs! "1900-01-00T00:00:00" = dateTimeText Tm.zero := by decide +kernel
  have k := (dateTimeText_order (timeOf_ok r) zero_ok []).2
  rw [List.append_nil, List.append_nil] at k
  have hi : TimeInvalid r → timeOf r = Tm.zero := by
    unfold TimeInvalid timeOf dateF dateI
    intro h
    split at h
    · rw [if_pos ‹_›, if_pos h]
    · rw [if_neg ‹_›, if_pos h]
  have hv : ¬ TimeInvalid r → 81 ≤ (timeOf r).year := by
    intro h
    unfold TimeInvalid at h
    unfold timeOf
    split
    · rw [if_pos ‹_›] at h
      unfold dateF
      rw [if_neg h]
      dsimp only
      split <;> omega
    · rw [if_neg ‹_›] at h
      unfold dateI
      rw [if_neg h]
      dsimp only
      omega
  refine ⟨?_, hv⟩
  have h1 : recordValue buff r = .ok (dateTimeText (timeOf r)) := h1
  rw [h1, e, Except.ok.injEq, k]
  refine ⟨fun h => Classical.byContradiction (fun hn => ?_), fun h => by rw [hi h]; exact ⟨⟨rfl, rfl, rfl⟩, rfl, rfl, rfl⟩⟩
  have := hv hn
  have h2 : (timeOf r).year = 0 := h.1.1
  omega

/-- The summer-time flag (bit 15 of a 4-byte time) is not shown: times that differ only in it have the same text. -/
theorem C135_summer (r q : Record) (hr : Delivered r) (hq : Delivered q) (dr : IsDateTime r) (dq : IsDateTime q) (r4 : r.dif.toNat % 16 = 4)
    (q4 : q.dif.toNat % 16 = 4) (hl : leNat (r.data.bytes.take 4) % 2 ^ 15 = leNat (q.data.bytes.take 4) % 2 ^ 15)
    (hh : leNat (r.data.bytes.take 4) / 2 ^ 16 = leNat (q.data.bytes.take 4) / 2 ^ 16) (buff : List Byte) (hb : buff.length = 768) :
    recordValue buff r = recordValue buff q := by
  obtain ⟨⟨s, t, h1, h2, _, h3⟩, _⟩ := C135_times r q hr hq dr dq buff hb (fun _ => 0) (fun _ => 0)
  rw [h1, h2, Except.ok.injEq, h3]
  unfold timeOf
  rw [if_pos r4, if_pos q4]
  generalize leNat (r.data.bytes.take 4) = w at *
  generalize leNat (q.data.bytes.take 4) = v at *
  have e : bits w 7 1 = bits v 7 1 ∧ bits w 0 6 = bits v 0 6 ∧ bits w 8 5 = bits v 8 5 ∧ bits w 16 5 = bits v 16 5 ∧ bits w 24 4 = bits v 24 4 ∧
      bits w 21 3 = bits v 21 3 ∧ bits w 28 4 = bits v 28 4 ∧ bits w 13 2 = bits v 13 2 := by
    have k : ∀ w : Nat, w / 2 ^ 21 = w / 2 ^ 16 / 2 ^ 5 ∧ w / 2 ^ 24 = w / 2 ^ 16 / 2 ^ 8 ∧ w / 2 ^ 28 = w / 2 ^ 16 / 2 ^ 12 := fun w => by omega
    unfold bits
    rw [(k w).1, (k w).2.1, (k w).2.2, (k v).1, (k v).2.1, (k v).2.2, hh]
    refine ⟨by omega, by omega, by omega, rfl, rfl, rfl, rfl, by omega⟩
  obtain ⟨e1, e2, e3, e4, e5, e6, e7, e8⟩ := e
  unfold dateF
  rw [e1, e2, e3, e4, e5, e6, e7, e8]
  split
  · exact ⟨⟨rfl, rfl, rfl⟩, rfl, rfl, rfl⟩
  · exact ⟨⟨rfl, rfl, rfl⟩, rfl, rfl, rfl⟩

/-! ### direct instances -/

/-- 31 January 2026, 1 February 2026; 25 October 2026, 2:30 (summer time), then 2:10 (winter time), an invalid time, and 2:30 in winter
time. -/
def dateTelegram : Frame := rsp 0x72 (hdr ++ ([0x02, 0x6C, 0x5F, 0x31] ++ ([0x02, 0x6C, 0x41, 0x32] ++ ([0x04, 0x6D, 0x1E, 0xA2, 0x59, 0x3A] ++
  ([0x04, 0x6D, 0x0A, 0x22, 0x59, 0x3A] ++ ([0x04, 0x6D, 0x80, 0, 0, 0] ++ [0x04, 0x6D, 0x1E, 0x22, 0x59, 0x3A]))))))
def dateRecs : List Rec := [.value 0x02 [] 0x6C [] [] [0x5F, 0x31], .value 0x02 [] 0x6C [] [] [0x41, 0x32], .value 0x04 [] 0x6D [] [] [0x1E, 0xA2, 0x59, 0x3A],
  .value 0x04 [] 0x6D [] [] [0x0A, 0x22, 0x59, 0x3A], .value 0x04 [] 0x6D [] [] [0x80, 0, 0, 0], .value 0x04 [] 0x6D [] [] [0x1E, 0x22, 0x59, 0x3A]]

theorem date_tiles : Tiles ([0x02, 0x6C, 0x5F, 0x31] ++ ([0x02, 0x6C, 0x41, 0x32] ++ ([0x04, 0x6D, 0x1E, 0xA2, 0x59, 0x3A] ++
    ([0x04, 0x6D, 0x0A, 0x22, 0x59, 0x3A] ++ ([0x04, 0x6D, 0x80, 0, 0, 0] ++ ([0x04, 0x6D, 0x1E, 0x22, 0x59, 0x3A] ++ [])))))) dateRecs := by
  have l : ∀ x ∈ dateRecs, x.Legal := by
    intro x hx
    simp only [dateRecs, List.mem_cons, List.not_mem_nil, or_false] at hx
    rcases hx with rfl | rfl | rfl | rfl | rfl | rfl <;>
      exact ⟨by decide, by decide, by decide, by decide, by decide, by decide, by decide, by decide, by decide,
        by unfold DataFits; rw [if_neg (by decide)]; rfl⟩
  have h6 := Tiles.cons (l _ (show Rec.value 0x04 [] 0x6D [] [] [0x1E, 0x22, 0x59, 0x3A] ∈ dateRecs by simp [dateRecs])) .nil
  have h5 := Tiles.cons (l _ (show Rec.value 0x04 [] 0x6D [] [] [0x80, 0, 0, 0] ∈ dateRecs by simp [dateRecs])) h6
  have h4 := Tiles.cons (l _ (show Rec.value 0x04 [] 0x6D [] [] [0x0A, 0x22, 0x59, 0x3A] ∈ dateRecs by simp [dateRecs])) h5
  have h3 := Tiles.cons (l _ (show Rec.value 0x04 [] 0x6D [] [] [0x1E, 0xA2, 0x59, 0x3A] ∈ dateRecs by simp [dateRecs])) h4
  have h2 := Tiles.cons (l _ (show Rec.value 0x02 [] 0x6C [] [] [0x41, 0x32] ∈ dateRecs by simp [dateRecs])) h3
  exact Tiles.cons (l _ (show Rec.value 0x02 [] 0x6C [] [] [0x5F, 0x31] ∈ dateRecs by simp [dateRecs])) h2

theorem date_delivered : ∀ x ∈ dateRecs, Delivered (mkRec x) := by
  intro x hx
  have := reads_rsp _ (by decide) dateRecs date_tiles
  exact this.delivered _ (List.mem_map_of_mem hx)

def dateRecord (i : Nat) : Record := mkRec (dateRecs.getD i (.value 0x02 [] 0x6C [] [] [0x5F, 0x31]))
theorem dateRecord_delivered (i : Fin 6) : Delivered (dateRecord i.val) := by
  apply date_delivered
  revert i
  decide

example (buff : List Byte) (hb : buff.length = 768) : ∃ s t, recordValue buff (dateRecord 0) = .ok s ∧ recordValue buff (dateRecord 1) = .ok t ∧ s < t := by
  obtain ⟨s, t, h1, h2, h3, _⟩ := C135_dates (dateRecord 0) (dateRecord 1) (dateRecord_delivered 0) (dateRecord_delivered 1) (by decide) (by decide) buff hb
    (fun _ => 0) (fun _ => 0)
  exact ⟨s, t, h1, h2, h3.mpr (by unfold DayBefore; decide +kernel)⟩
example (buff : List Byte) (hb : buff.length = 768) : recordValue buff (dateRecord 4) = .ok (cs! "1900-01-00T00:00:00") :=
  (C135_invalid (dateRecord 4) (dateRecord_delivered 4) (by decide) buff hb).1.mpr (by unfold TimeInvalid; decide +kernel)
example (buff : List Byte) (hb : buff.length = 768) : ∃ s t, recordValue buff (dateRecord 0) = .ok s ∧ recordValue buff (dateRecord 2) = .ok t ∧ s < t := by
  obtain ⟨s, t, h1, h2, h3, _⟩ := C135_mixed (dateRecord 0) (dateRecord 2) (dateRecord_delivered 0) (dateRecord_delivered 2) (by decide) (by decide) buff hb
  exact ⟨s, t, h1, h2, h3.mpr (by unfold DayBefore; decide +kernel)⟩
example (buff : List Byte) (hb : buff.length = 768) : recordValue buff (dateRecord 0) ≠ recordValue buff (dateRecord 1) := fun h =>
  absurd ((C135_bytes (dateRecord 0) (dateRecord 1) (dateRecord_delivered 0) (dateRecord_delivered 1) (by decide) (by decide) buff hb).mp h) (by decide +kernel)
example (buff : List Byte) (hb : buff.length = 768) : recordValue buff (dateRecord 2) = recordValue buff (dateRecord 5) :=
  C135_summer _ _ (dateRecord_delivered 2) (dateRecord_delivered 5) (by decide) (by decide) (by decide) (by decide) (by decide +kernel) (by decide +kernel) buff hb

/-- The first record was taken in summer time, 40 minutes before the second (at 3:00 the clock was set back to 2:00), and has the greater text. -/
theorem C135_summer_instance (buff : List Byte) (hb : buff.length = 768) : Delivered (dateRecord 2) ∧ Delivered (dateRecord 3) ∧
    recordValue buff (dateRecord 2) = .ok (cs! "2026-10-25T02:30:00") ∧ recordValue buff (dateRecord 3) = .ok (cs! "2026-10-25T02:10:00") ∧
    (timeOf (dateRecord 2)).isdst = 1 ∧ (timeOf (dateRecord 3)).isdst = 0 := by
  have h2 := C19_date_time _ (dateRecord_delivered 2) (by decide) buff hb (fun _ => 0)
  have h3 := C19_date_time _ (dateRecord_delivered 3) (by decide) buff hb (fun _ => 0)
  refine ⟨dateRecord_delivered 2, dateRecord_delivered 3, ?_, ?_, by decide +kernel, by decide +kernel⟩
  · rw [show dateRecord 2 = dateRecord (2 : Fin 6).val from rfl, h2.1]
    decide +kernel
  · rw [show dateRecord 3 = dateRecord (3 : Fin 6).val from rfl, h3.1]
    decide +kernel

end Mbus
