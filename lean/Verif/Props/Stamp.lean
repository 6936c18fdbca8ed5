import Verif.Lemmas.Stamp
import Verif.Props.XmlExact
/-
Property theorems C114: the time stamps of the XML document and of the dump of telegrams (`Civil`, `IsoText`, `Stamps` from
Spec/Stamp.lean).
-/
namespace Mbus
open Spec

/-- C114: from 1970 until the end of year 9999 the text is the UTC date and time, whatever the array contained. -/
theorem C114_text (junk : Nat → Byte) (sep : Byte) (hs : sep ≠ 0) (t : Nat) (ht : (t : Int) < endOf9999) :
    ∃ c : Civil, c.Valid ∧ c.seconds = t ∧ stampText junk sep t = .ok (c.text sep) := by
  obtain ⟨c, h1, h2, h3⟩ := gmtime_civil t
  have hy := (year_lt c h1).mpr (by rw [h2]; exact ht)
  refine ⟨c, h1, h2, ?_⟩
  rw [if_pos (by omega)] at h3
  unfold stampText
  rw [h3]
  dsimp only
  rw [civil_format sep c h1 hy]
  unfold strftimeInto
  rw [if_pos (by rw [civil_text_length]; decide), List.append_assoc]
  rw [cstr_prefix (c.text sep) _ ⟨(malloc junk 22).drop ((c.text sep).length + 1), by simp⟩, upToNul_eq _ (civil_text_nonul sep hs c)]

/-- C114: no two dates are the same number of seconds after 1970: the date is determined by the time. -/
theorem C114_unique (a b : Civil) (ha : a.Valid) (hb : b.Valid) : a.seconds = b.seconds ↔ a = b :=
  ⟨civil_inj a b ha hb, fun h => by rw [h]⟩

/-- C114: the texts are ordered (character by character) as the times are; in particular different times have different texts. -/
theorem C114_order (junk junk' : Nat → Byte) (sep : Byte) (hs : sep ≠ 0) (t t' : Nat) (ht : (t : Int) < endOf9999)
    (ht' : (t' : Int) < endOf9999) :
    ∃ s s', stampText junk sep t = .ok s ∧ stampText junk' sep t' = .ok s' ∧ (s < s' ↔ t < t') ∧ (s = s' ↔ t = t') := by
  obtain ⟨c, h1, h2, h3⟩ := C114_text junk sep hs t ht
  obtain ⟨c', h1', h2', h3'⟩ := C114_text junk' sep hs t' ht'
  refine ⟨_, _, h3, h3', ?_⟩
  have hy := (year_lt c h1).mpr (by rw [h2]; exact ht)
  have hy' := (year_lt c' h1').mpr (by rw [h2']; exact ht')
  rcases Nat.lt_trichotomy t t' with h | h | h
  · have hl := civil_text_lt sep c c' h1 h1' hy' (by rw [h2, h2']; omega)
    exact ⟨iff_of_true hl h, iff_of_false (fun e => by rw [e] at hl; exact List.lt_irrefl _ hl) (by omega)⟩
  · have e : c = c' := civil_inj c c' h1 h1' (by rw [h2, h2', h])
    rw [e]
    exact ⟨iff_of_false (List.lt_irrefl _) (by omega), iff_of_true rfl h⟩
  · have hl := civil_text_lt sep c' c h1' h1 hy (by rw [h2, h2']; omega)
    exact ⟨iff_of_false (fun h' => List.lt_irrefl _ (List.lt_trans hl h')) (by omega), iff_of_false (fun e => by rw [e] at hl; exact List.lt_irrefl _ hl) (by omega)⟩

/-- C114: from year 10000 on the text shown is whatever the uninitialised array contained, and from year 2147485548 on the call
dereferences a null pointer. -/
theorem C114_late (junk : Nat → Byte) (sep : Byte) (t : Nat) (ht : endOf9999 ≤ t) :
    stampText junk sep t = if (t : Int) < endOfYears then cstr (malloc junk 22) else .error .null := by
  obtain ⟨c, h1, h2, h3⟩ := gmtime_civil t
  unfold stampText
  rw [h3]
  by_cases h : (t : Int) < endOfYears
  · rw [if_pos h, if_pos ((year_int c h1).mpr (by rw [h2]; exact h))]
    dsimp only
    unfold strftimeInto
    rw [if_neg]
    have hy : ¬ c.year < 10000 := fun hy => by
      have := (year_lt c h1).mp hy
      rw [h2] at this
      omega
    have := format_long sep { sec := c.sec, min := c.min, hour := c.hour, mday := c.day, mon := (c.month : Int) - 1, year := (c.year : Int) - 1900, isdst := 0 } c.year rfl (by omega)
    omega
  · rw [if_neg h, if_neg (fun hy => h (by have := (year_int c h1).mp hy; rwa [h2] at this))]

/-- C114: after year 9999 every text of at most 21 characters can be shown as the time. -/
theorem C114_late_content (s : List Byte) (hs : s.length ≤ 21) (h0 : (0 : Byte) ∉ s) :
    ∃ junk, stampText junk 84 253402300800 = .ok s := by
  refine ⟨fun i => s.getD i 0, ?_⟩
  rw [C114_late _ _ _ (by decide), if_pos (by decide)]
  have e : malloc (fun i => s.getD i 0) 22 = s ++ [0] ++ List.replicate (21 - s.length) 0 := by
    unfold malloc
    apply List.ext_getElem
    · simp; omega
    · intro i h1 h2
      simp only [List.length_map, List.length_range] at h1
      rw [List.getElem_map, List.getElem_range]
      by_cases h : i < s.length
      · rw [List.getElem_append_left (by simp; omega), List.getElem_append_left h]
        simp [h]
      · rw [List.getD_eq_getElem?_getD, List.getElem?_eq_none (by omega)]
        by_cases h' : i < (s ++ [0]).length
        · rw [List.getElem_append_left h', List.getElem_append_right (by omega)]
          simp
        · rw [List.getElem_append_right (by omega)]
          simp
  rw [e, cstr_prefix s _ ⟨List.replicate (21 - s.length) 0, rfl⟩, upToNul_eq s h0]

/-- The text of a record's time stamp: that of `IsoText`, or none if the time is not positive. -/
theorem C114_record (junk : Nat → Byte) (t : Int) (ht : t < endOf9999) :
    ∃ s, recordStamp junk t = .ok s ∧ (if 0 < t then ∃ x, s = some x ∧ IsoText t x else s = none) := by
  unfold recordStamp
  by_cases h : 0 < t
  · obtain ⟨c, h1, h2, h3⟩ := C114_text junk 84 (by decide) t.toNat (by omega)
    rw [if_pos h, h3]
    exact ⟨_, rfl, by rw [if_pos h]; exact ⟨_, rfl, c, h1, by rw [h2]; omega, rfl⟩⟩
  · rw [if_neg h]
    exact ⟨none, rfl, by rw [if_neg h]⟩

theorem IsoText_unique {t : Int} {x y : List Byte} (hx : IsoText t x) (hy : IsoText t y) : x = y := by
  obtain ⟨a, a1, a2, a3⟩ := hx
  obtain ⟨b, b1, b2, b3⟩ := hy
  rw [a3, b3, civil_inj a b a1 b1 (by rw [a2, b2])]

theorem IsoText_ok {t : Int} {x : List Byte} (h : IsoText t x) : ((0 : Byte) ∉ x ∧ x.length ≤ 20) ∧ CharData x := by
  obtain ⟨c, _, _, rfl⟩ := h
  refine ⟨⟨civil_text_nonul 84 (by decide) c, by rw [civil_text_length]; decide⟩, charData_all _ fun x hx => ?_⟩
  rcases civil_text_chars 84 c x hx with h | h | h | h | h
  · subst h; decide
  · subst h; decide
  · subst h; decide
  · subst h; decide
  · refine ⟨fun e => ?_, fun e => ?_, .inl (by omega)⟩
    · subst e; revert h; decide
    · subst e; revert h; decide

theorem stamps_eq {t : Int} {its : List Item} {s : Option (List Byte)} (h : Stamps t its)
    (hs : if 0 < t then ∃ x, s = some x ∧ IsoText t x else s = none) : ∀ it ∈ its, it.2.2 = s := by
  intro it hit
  have := h it hit
  by_cases hp : 0 < t
  · rw [if_pos hp] at hs this
    obtain ⟨x, rfl, hx⟩ := hs
    obtain ⟨y, hy, hy'⟩ := this
    rw [hy, IsoText_unique hy' hx]
  · rw [if_neg hp] at hs this
    rw [this, hs]

theorem stamps_ok {t : Int} {its : List Item} (h : Stamps t its) : ∀ it ∈ its, StampOk it.2.2 ∧ ∀ s, it.2.2 = some s → CharData s := by
  intro it hit
  have := h it hit
  by_cases hp : 0 < t
  · rw [if_pos hp] at this
    obtain ⟨y, hy, hy'⟩ := this
    rw [hy]
    constructor
    · intro s e
      injection e with e
      subst e
      exact (IsoText_ok hy').1
    · intro s e
      injection e with e
      subst e
      exact (IsoText_ok hy').2
  · rw [if_neg hp] at this
    rw [this]
    exact ⟨(fun s e => by cases e), (fun s e => by cases e)⟩

theorem stampAll_ok (junk : Nat → Byte) {ts : List (Frame × Int)} {tss : List (List Item)} (hi : Pointwise TimedItems ts tss)
    (hb : ∀ p ∈ ts, p.2 < endOf9999) : ∃ r, stampAll junk ts = .ok r ∧ Pointwise ItemsOf r tss := by
  induction hi with
  | nil => exact ⟨[], rfl, .nil⟩
  | @cons a its as bs h _ ih =>
    obtain ⟨f, t⟩ := a
    obtain ⟨s, hs, hs'⟩ := C114_record junk t (hb _ (List.mem_cons_self ..))
    obtain ⟨r, hr, hr'⟩ := ih (fun p hp => hb p (List.mem_cons_of_mem _ hp))
    refine ⟨(f, s) :: r, ?_, .cons ⟨h.1, stamps_eq h.2 hs'⟩ hr'⟩
    rw [stampAll, hs, ok_bind, hr, ok_bind]

theorem timed_stamps {ts : List (Frame × Int)} {tss : List (List Item)} (hi : Pointwise TimedItems ts tss) :
    ∀ i ∈ tss, ∀ it ∈ i, StampOk it.2.2 ∧ ∀ s, it.2.2 = some s → CharData s := by
  induction hi with
  | nil => intro i h; cases h
  | cons h _ ih =>
    intro i hm
    rcases List.mem_cons.mp hm with rfl | hm
    · exact stamps_ok h.2
    · exact ih i hm

/-- C114 for `mbus_frame_xml`: in the document of every chain of telegrams received before year 10000, every record has the ISO 8601
text of the time at which its telegram was received (none for times that are not positive); the returned text is well-formed
exactly if it is complete.  (`Meets`, `xmlFate`: as for C113.) -/
theorem C114_xml (junk0 : Nat → Byte) (junk : Nat → Nat → Byte) (junkT : Nat → Byte) (t : Frame × Int) (ts : List (Frame × Int)) (h : VarHeader)
    (its : List Item) (tss : List (List Item)) (hread : Reads t.1 h (its.map (·.1))) (hst : Stamps t.2 its)
    (hi : Pointwise TimedItems ts tss) (hb : ∀ p ∈ t :: ts, p.2 < endOf9999) (hs : ∀ i ∈ its :: tss, ∀ it ∈ i, Writable it)
    (hc : total (its :: tss) < 2 ^ 31) (hk : (its :: tss).length < 2 ^ 31) :
    ∃ p, productName h = .ok p ∧
      Meets (timedXml junk0 junk junkT t ts) (fun m => ⟨some m, false, []⟩)
        (document (slaveGroup h p (mediumLookup h.medium) :: readoutGroupsCut (its :: tss)))
        (xmlFate (startLength (slaveGroup h p (mediumLookup h.medium))) (whole (readoutGroupsCut (its :: tss)))) ∧
      ∀ o m text, timedXml junk0 junk junkT t ts = .ok o → o.text = some m → cstr m = .ok text →
        (WellFormedXml text ↔ xmlFate (startLength (slaveGroup h p (mediumLookup h.medium))) (whole (readoutGroupsCut (its :: tss))) = .complete) := by
  obtain ⟨s, hs1, hs2⟩ := C114_record junkT t.2 (hb _ (List.mem_cons_self ..))
  obtain ⟨r, hr1, hr2⟩ := stampAll_ok junkT hi (fun p hp => hb p (List.mem_cons_of_mem _ hp))
  have e : timedXml junk0 junk junkT t ts = frameXml junk0 junk (t.1, s) r := by
    unfold timedXml
    rw [hs1, ok_bind, hr1, ok_bind]
  have hok : ∀ i ∈ its :: tss, ∀ it ∈ i, StampOk it.2.2 ∧ ∀ s, it.2.2 = some s → CharData s := by
    intro i hm
    rcases List.mem_cons.mp hm with rfl | hm
    · exact stamps_ok hst
    · exact timed_stamps hi i hm
  obtain ⟨p, hp, h1⟩ := C113_frame junk0 junk (t.1, s) r h its tss hread (stamps_eq hst hs2) hr2
    (fun i hi it hit => ⟨hs i hi it hit, (hok i hi it hit).1⟩) hc hk
  obtain ⟨p', hp', h2⟩ := C113_wellFormed junk0 junk (t.1, s) r h its tss hread (stamps_eq hst hs2) hr2
    (fun i hi it hit => ⟨hs i hi it hit, (hok i hi it hit).1⟩) (fun i hi it hit => (hok i hi it hit).2) hc hk
  have ep : p' = p := Except.ok.inj (hp'.symm.trans hp)
  rw [ep] at h2
  rw [e]
  exact ⟨p, hp, h1, h2⟩

/-- Examples: the last second of February 2024, and the hypotheses of C114_xml for a telegram received then. -/
example : (⟨2024, 2, 29, 23, 59, 59⟩ : Civil).Valid ∧ (⟨2024, 2, 29, 23, 59, 59⟩ : Civil).seconds = 1709251199 ∧
    (⟨2024, 2, 29, 23, 59, 59⟩ : Civil).text 84 = cs! "2024-02-29T23:59:59Z" :=
  ⟨⟨by decide, by decide, by decide, by decide, by decide, by decide⟩, by decide, by decide +kernel⟩

/-- a temperature received at that time -/
def stampedItem : Item := (flowItem.1, flowItem.2.1, some (cs! "2024-02-29T23:59:59Z"))

example (junk0 : Nat → Byte) (junk : Nat → Nat → Byte) (junkT : Nat → Byte) :
    ∃ m, timedXml junk0 junk junkT (rsp 0x72 (hdr ++ (List.replicate 3 [0x00, 0x5A]).flatten), 1709251199) [] = .ok ⟨some m, false, []⟩ ∧
      document (slaveGroup hdrHeader [] (mediumLookup hdrHeader.medium) :: readoutGroupsCut [List.replicate 3 stampedItem]) ++ [0] <+: m := by
  obtain ⟨p, hp, hm, _⟩ := C114_xml junk0 junk junkT (rsp 0x72 (hdr ++ (List.replicate 3 [0x00, 0x5A]).flatten), 1709251199) [] hdrHeader
    (List.replicate 3 stampedItem) [] (by
      have := reads_rsp ((List.replicate 3 [0x00, 0x5A]).flatten ++ []) (by decide +kernel) (List.replicate 3 flowRec ++ []) (flow_tiles 3 .nil)
      rw [List.append_nil, List.append_nil] at this
      exact this) (by
      intro it hit
      rw [(List.mem_replicate.mp hit).2, if_pos (by decide)]
      exact ⟨_, rfl, ⟨2024, 2, 29, 23, 59, 59⟩, ⟨by decide, by decide, by decide, by decide, by decide, by decide⟩, by decide, by decide +kernel⟩)
    .nil (by intro p hp; rw [List.mem_singleton.mp hp]; decide) (by
      intro i hi it hit
      rw [List.mem_singleton.mp hi] at hit
      rw [(List.mem_replicate.mp hit).2]
      have := edge_writable flowItem (by simp)
      exact ⟨this.1.unit, this.1.storage⟩) (by simp [total]) (by simp)
  rw [hdr_product] at hp
  injection hp with hp
  subst hp
  rw [show xmlFate _ _ = XmlFate.complete by decide +kernel] at hm
  exact hm

/-! Direct instances of the theorems above. -/

example := C114_text (fun _ => 7) 84 (by decide) 1709251199 (by decide)
example := C114_unique ⟨2024, 2, 29, 23, 59, 59⟩ ⟨2024, 3, 1, 0, 0, 0⟩ ⟨by decide, by decide, by decide, by decide, by decide, by decide⟩
  ⟨by decide, by decide, by decide, by decide, by decide, by decide⟩
example := C114_order (fun _ => 7) (fun _ => 8) 32 (by decide) 1709251199 1709251200 (by decide) (by decide)
example := C114_late (fun _ => 7) 84 253402300800 (by decide)
example := C114_late_content (cs! "garbage") (by decide) (by decide)
example := C114_record (fun _ => 7) 1709251199 (by decide)

end Mbus
