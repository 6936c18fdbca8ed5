import Verif.Lemmas.Owned
import Verif.Props.XmlNorm
import Verif.Props.ParseTools
/-
Property theorems C101, C102: the memory of normalised records, for every pattern of failing allocations.
-/
namespace Mbus
open Spec

/-! ### C101: a normalised record owns its memory -/

theorem Spec.Handed.released {x leak res m m' news} (hm : MemOk m) (g : Grown m m' news) (h : Handed x leak res m' news) (w : HRecord) (hw : res = some w) :
    ∃ m'', recordFree m' (some w) = .ok m'' ∧ m''.live = m.live := by
  subst hw
  obtain ⟨hperm, _⟩ := h
  have hnd : (ownBlocks w).Nodup := hperm.nodup_iff.mpr g.nodup
  obtain ⟨m'', e, g', _⟩ := recordFree_grown hm g w hnd (fun a ha => hperm.mem_iff.mp ha)
  refine ⟨m'', e, ?_⟩
  rw [g'.live, List.filter_eq_nil_iff.mpr, List.nil_append]
  intro y hy
  have : y.1 ∈ ownBlocks w := hperm.mem_iff.mpr (List.mem_map_of_mem (f := fun x : Nat × List Byte => x.1) hy)
  simp [this]

/-- C101 for a record of the variable data structure, whatever allocations fail: the call returns normally; what it allocated are
exactly the blocks of the returned record, which read as the record of the plain model (C69), with unit or quantity possibly absent;
`mbus_record_free` on it restores the heap. When it returns NULL, everything was released.
Missing: records with an unassigned VIF (`C101_leak_violation`), completeness of the record when an allocation failed
(`C101_incomplete_violation`). -/
theorem C101_variable_partial (junk : Nat → Byte) (r : Record) (hr : Delivered r) (hst : StorageOk r) (m : Mem) (hm : MemOk m) :
    ∃ x leak res m', parseVariableRecord junk r = .ok (x, leak) ∧ parseVariableOwned junk r m = .ok (res, m') ∧ MemOk m' ∧
      (∀ w, res = some w → (∃ full n, x = some full ∧ w.read m' = .ok n ∧ Lacking full n) ∧
        (∃ news, m'.live = news ++ m.live ∧ (ownBlocks w).Perm (news.map (·.1))) ∧
        ∃ m'', recordFree m' (some w) = .ok m'' ∧ m''.live = m.live) ∧
      (res = none → Special r ∨ ¬ UnknownUnit r → m'.live = m.live) := by
  obtain ⟨x, leak, res, m', news, h1, h2, g, _, hand, _⟩ := variableOwned_runs (junk := junk) hr hst hm
  refine ⟨x, leak, res, m', h1, h2, g.ok hm, ?_, ?_⟩
  · intro w hw
    have hrel := hand.released hm g w hw
    subst hw
    exact ⟨hand.2, ⟨news, g.live, hand.1⟩, hrel⟩
  · intro hn hu
    subst hn
    rcases hand with rfl | ⟨_, a, s, hl, _⟩
    · exact g.live
    · obtain ⟨res', h⟩ := C70_no_leak_partial r hr hst junk hu
      rw [h1] at h
      injection h with h
      injection h with _ h
      rw [hl] at h
      cases h

/-- C101, when no allocation fails: exactly the record of the plain model; NULL exactly when that gives NULL. -/
theorem C101_granting (junk : Nat → Byte) (r : Record) (hr : Delivered r) (hst : StorageOk r) (m : Mem) (hm : MemOk m) (hg : Granting m) :
    ∃ x leak res m', parseVariableRecord junk r = .ok (x, leak) ∧ parseVariableOwned junk r m = .ok (res, m') ∧
      (x = none → res = none ∧ ∃ news, m'.live = news ++ m.live ∧ news.map (·.2) = leak.toList) ∧
      (∀ full, x = some full → ∃ w, res = some w ∧ w.read m' = .ok full) := by
  obtain ⟨x, leak, res, m', news, h1, h2, g, _, _, hall⟩ := variableOwned_runs (junk := junk) hr hst hm
  have := hall hg
  refine ⟨x, leak, res, m', h1, h2, ?_, ?_⟩
  · rintro rfl
    exact ⟨this.1, news, g.live, this.2⟩
  · rintro full rfl
    exact this

/-- C101 for a counter of the fixed data structure. -/
theorem C101_fixed (status unit : Byte) (d : List Byte) (hd : 4 ≤ d.length) (m : Mem) (hm : MemOk m) :
    ∃ x res m', parseFixedRecord status unit d = .ok x ∧ parseFixedOwned status unit d m = .ok (res, m') ∧ MemOk m' ∧
      (∀ w, res = some w → (∃ full n, x = some full ∧ w.read m' = .ok n ∧ Lacking full n) ∧
        (∃ news, m'.live = news ++ m.live ∧ (ownBlocks w).Perm (news.map (·.1))) ∧
        ∃ m'', recordFree m' (some w) = .ok m'' ∧ m''.live = m.live) ∧
      (res = none → m'.live = m.live) ∧
      (Granting m → (x = none → res = none) ∧ ∀ full, x = some full → ∃ w, res = some w ∧ w.read m' = .ok full) := by
  have ⟨x, hx⟩ : ∃ x, parseFixedRecord status unit d = .ok x := by
    have h := C72_fixed status unit d hd
    dsimp only at h
    by_cases hc : (fixedNormalize unit.toNat (counterValue status d) (.lit 0)).code = 0
    · exact ⟨_, h.2 hc⟩
    · exact ⟨_, h.1 hc⟩
  obtain ⟨res, m', news, h2, g, _, hand, hall⟩ := fixedOwned_runs status unit d x hx hm
  refine ⟨x, res, m', hx, h2, g.ok hm, ?_, ?_, ?_⟩
  · intro w hw
    have hrel := hand.released hm g w hw
    subst hw
    exact ⟨hand.2, ⟨news, g.live, hand.1⟩, hrel⟩
  · intro hn
    subst hn
    rcases hand with rfl | ⟨_, a, s, hl, _⟩
    · exact g.live
    · cases hl
  · intro hg
    have := hall hg
    refine ⟨?_, ?_⟩
    · rintro rfl
      exact this.1
    · rintro full rfl
      exact this

/-- C101 is false of the code: normalising this delivered record returns NULL, with every allocation granted, and leaves the text "A"
in the heap, to which nobody has a pointer. -/
theorem C101_leak_violation : ∃ r v', variableParse leaky VarData.zero = .ok (0, v') ∧ v'.records = [r] ∧
    ∃ m', parseVariableOwned (fun _ => 0) r ⟨0, [], []⟩ = .ok (none, m') ∧ m'.live = [(2, cs! "A" ++ [0])] := by
  refine ⟨_, _, rfl, rfl, ?_⟩
  refine ⟨⟨5, [(2, cs! "A" ++ [0])], []⟩, ?_, rfl⟩
  decide +kernel

/-- C101 is false of the code: when the allocation of the unit text fails, the call still returns a record, without a unit. -/
theorem C101_incomplete_violation : Delivered volumeItem.1 ∧
    ∃ w m' n full, parseVariableOwned (fun _ => 0) volumeItem.1 ⟨0, [], [true, true, false]⟩ = .ok (some w, m') ∧ w.read m' = .ok n ∧ n.unit = none ∧
      parseVariableRecord (fun _ => 0) volumeItem.1 = .ok (some full, none) ∧ full.unit = some (cs! "m^3") := by
  refine ⟨volume_reads.delivered _ (by simp), ?_⟩
  obtain ⟨x, leak, res, m', h1, h2, _, h3, h4⟩ := C101_variable_partial (fun _ => 0) volumeItem.1 (volume_reads.delivered _ (by simp))
    ⟨by decide, by decide +kernel⟩ ⟨0, [], [true, true, false]⟩ ⟨by simp, by simp⟩
  have hx : (match parseVariableRecord (fun _ => 0) volumeItem.1 with | .ok (some full, none) => decide (full.unit = some (cs! "m^3")) | _ => false) = true := by
    decide +kernel
  have ho : (match parseVariableOwned (fun _ => 0) volumeItem.1 ⟨0, [], [true, true, false]⟩ with | .ok (some w, _) => decide (w.unit = none) | _ => false) = true := by
    decide +kernel
  rw [h1] at hx
  rw [h2] at ho
  match res, ho, h3 with
  | some w, ho, h3 =>
    obtain ⟨⟨full, n, e1, e2, _⟩, _⟩ := h3 w rfl
    subst e1
    match leak, hx with
    | none, hx =>
      refine ⟨w, m', n, full, h2, e2, ?_, h1, of_decide_eq_true hx⟩
      have hu : w.unit = none := of_decide_eq_true ho
      unfold HRecord.read at e2
      obtain ⟨v, _, e2⟩ := bind_eq_ok.mp e2
      obtain ⟨u, hu', e2⟩ := bind_eq_ok.mp e2
      obtain ⟨f, _, e2⟩ := bind_eq_ok.mp e2
      obtain ⟨q, _, e2⟩ := bind_eq_ok.mp e2
      rw [hu] at hu'
      injection hu' with hu'
      cases f with
      | none => cases e2
      | some f => injection e2 with e2; rw [← e2]; exact hu'.symm

/-- The hypotheses of `C101_variable_partial` on a real telegram, with a heap in use and a failing allocation. -/
example (junk : Nat → Byte) : ∃ res m', parseVariableOwned junk volumeItem.1 ⟨8, [(7, [1, 2])], [true, false]⟩ = .ok (res, m') ∧ MemOk m' := by
  obtain ⟨_, _, res, m', _, h, hm, _⟩ := C101_variable_partial junk volumeItem.1 (volume_reads.delivered _ (by simp))
    ⟨by decide, by decide +kernel⟩ ⟨8, [(7, [1, 2])], [true, false]⟩ ⟨by simp, by simp⟩
  exact ⟨res, m', h, hm⟩

/-! ### C102: the normalised XML under failing allocations -/

theorem lost_unknown {rs : List Record} (hd : ∀ r ∈ rs, Delivered r ∧ StorageOk r) {x : Nat × List Byte} (h : LostText rs x) :
    ∃ r ∈ rs, ¬ Special r ∧ UnknownUnit r := by
  obtain ⟨r, hr, j, hp⟩ := h
  refine ⟨r, hr, ?_⟩
  obtain ⟨o, res, leak, _, _, _, hp', _, hl, _⟩ := parseVariableRecord_eq (hd r hr).1 (hd r hr).2 j
  rw [hp] at hp'
  injection hp' with hp'
  injection hp' with _ hp'
  rw [← hp'] at hl
  split at hl
  · assumption
  · cases hl

/-- C102: whatever allocations fail, the call does nothing undefined; it returns NULL, or a block that holds the complete document, in
which some records may appear empty or without unit or quantity. Of its other allocations at most the texts of records with an
unassigned VIF remain. When no allocation fails it returns the text of the plain model.
Missing: records outside C79's restriction. -/
theorem C102_partial (junk0 : Nat → Byte) (junk : Nat → Nat → Byte) (v : VarData) (hc : v.records.length < 2 ^ 31)
    (hd : ∀ r ∈ v.records, Delivered r ∧ StorageOk r)
    (ht : ∀ r ∈ v.records, ∀ j n leak, parseVariableRecord j r = .ok (some n, leak) → Terse n) (m : Mem) (hm : MemOk m) :
    ∃ res m' news, variableXmlNormalizedOwned junk0 junk v m = .ok (res, m') ∧ MemOk m' ∧ m'.live = news ++ m.live ∧
      (∀ x ∈ news, res ≠ some x.1 → ∃ r ∈ v.records, ¬ Special r ∧ UnknownUnit r) ∧
      (∀ q, res = some q → ∃ c p ns, (q, c) ∈ news ∧ m'.load q = .ok c ∧ productName v.header = .ok p ∧
        Pointwise (fun r n => ∃ j full leak, parseVariableRecord j r = .ok (full, leak) ∧ Printed full n) v.records ns ∧
        normDocument v.header p ns ++ [0] <+: c) ∧
      (Granting m → ∃ q c, res = some q ∧ m'.load q = .ok c ∧ variableXmlNormalized junk0 junk v = .ok c) := by
  unfold variableXmlNormalizedOwned
  rcases alloc_cases m (malloc (scratch junk0 3) 8192) with ⟨m1, e1, g1, hg1⟩ | ⟨m1, e1, g1, hg1⟩
  · rw [e1]
    dsimp only
    obtain ⟨p, hp, _⟩ := productName_plain v.header
    obtain ⟨q', hp', s1, s2, s3⟩ := headerXml_runs junk0 v.header
    rw [hp] at hp'
    injection hp' with hp'
    subst hp'
    obtain ⟨b1, k1, hb1⟩ := put_runs (holds_new (scratch junk0 3) 8192) XML_PI (by simp [XML_PI])
    obtain ⟨b2, k2, hb2⟩ := put_runs hb1.holds (cs! "<MBusData>\n\n") (by simp [XML_PI])
    obtain ⟨b3, k3, hb3⟩ := put_runs hb2.holds (slaveGroup v.header p (mediumLookup v.header.medium)).render (by simp [XML_PI]; omega)
    have hroom : Roomy b3 (cs! "<?xml version=\"1.0\" encoding=\"ISO-8859-1\"?>\n<MBusData>\n\n" ++
        (slaveGroup v.header p (mediumLookup v.header.medium)).render) := by
      refine ⟨8192, by decide, ?_, ?_⟩
      · simp; omega
      · simpa [XML_PI] using hb3
    rw [k1, ok_bind, k2, ok_bind, s1, ok_bind, k3, ok_bind]
    obtain ⟨g, m2, news, r1, g2, r2, r3⟩ := nrecordsOwned_runs junk v.records hm v.records (fun _ h => h) (by
      intro r hr
      refine ⟨(hd r hr).1, (hd r hr).2, fun j n leak hp => ?_⟩
      obtain ⟨n', leak', q1, q2⟩ := normalised_ready (hd r hr).1 (hd r hr).2 j
      rw [hp] at q1
      injection q1 with q1
      injection q1 with q1 _
      exact q2 n q1.symm (ht r hr j n leak hp)) 0 (by omega) (List.replicate 768 0) List.length_replicate b3 _ hroom m.next m1 _ g1 (by simp)
      (by intro x hx hne; rw [List.mem_singleton.mp hx] at hne; exact absurd rfl hne)
    rw [r1, ok_bind]
    cases g with
    | none =>
      refine ⟨none, m2, news, rfl, g2.ok hm, g2.live, fun x hx _ => lost_unknown hd (r2 x hx), by simp, fun hg => ?_⟩
      obtain ⟨_, _, h, _⟩ := r3 (hg1 hg)
      cases h
    | some bp =>
      obtain ⟨b4, q⟩ := bp
      obtain ⟨hq, hlost, ns, hns, hroom4⟩ := r2
      obtain ⟨b5, k5, hb5⟩ := close_runs hroom4
      dsimp only
      rw [k5, ok_bind]
      have g3 := grown_store hm g2 hq b5.mem
      have hin : (q, b5.mem) ∈ news.map fun x => if x.1 = q then (q, b5.mem) else x := by
        obtain ⟨y, hy, hyq⟩ := List.mem_map.mp hq
        exact List.mem_map.mpr ⟨y, hy, by rw [if_pos hyq]⟩
      have hload : (m2.store q b5.mem).load q = .ok b5.mem := load_live (g3.ok hm) (by rw [g3.live]; exact List.mem_append_left _ hin)
      refine ⟨some q, _, _, rfl, g3.ok hm, g3.live, ?_, ?_, ?_⟩
      · intro x hx hne
        obtain ⟨z, hz, rfl⟩ := List.mem_map.mp hx
        by_cases hzq : z.1 = q
        · rw [if_pos hzq] at hne
          exact absurd rfl hne
        · exact lost_unknown hd (hlost z hz hzq)
      · intro q0 hq0
        injection hq0 with hq0
        subst hq0
        refine ⟨b5.mem, p, ns, hin, hload, hp, hns, ?_⟩
        simpa [normDocument, document] using hb5
      · intro hg
        obtain ⟨b', p', h1, h2⟩ := r3 (hg1 hg)
        injection h1 with h1
        injection h1 with h1 _
        refine ⟨q, b5.mem, rfl, hload, ?_⟩
        unfold variableXmlNormalized
        dsimp only
        rw [k1, ok_bind, k2, ok_bind, s1, ok_bind, k3, ok_bind, h2, ok_bind, ← h1, k5, ok_bind]
  · rw [e1]
    dsimp only
    refine ⟨none, m1, [], rfl, g1.ok hm, g1.live, by simp, by simp, fun h => absurd h hg1⟩

/-- C102, when every record has an assigned VIF (or is manufacturer specific): whatever allocations fail, the heap afterwards is the
heap before plus the returned block; after NULL it is the heap before. -/
theorem C102_clean_partial (junk0 : Nat → Byte) (junk : Nat → Nat → Byte) (v : VarData) (hc : v.records.length < 2 ^ 31)
    (hd : ∀ r ∈ v.records, Delivered r ∧ StorageOk r)
    (ht : ∀ r ∈ v.records, ∀ j n leak, parseVariableRecord j r = .ok (some n, leak) → Terse n)
    (hu : ∀ r ∈ v.records, Special r ∨ ¬ UnknownUnit r) (m : Mem) (hm : MemOk m) :
    ∃ res m', variableXmlNormalizedOwned junk0 junk v m = .ok (res, m') ∧
      (res = none → m'.live = m.live) ∧ (∀ q, res = some q → ∃ c, m'.live = (q, c) :: m.live) := by
  obtain ⟨res, m', news, h1, hm', h2, h3, h4, _⟩ := C102_partial junk0 junk v hc hd ht m hm
  have hall : ∀ x ∈ news, res = some x.1 := by
    intro x hx
    by_cases he : res = some x.1
    · exact he
    · obtain ⟨r, hr, a, b⟩ := h3 x hx he
      rcases hu r hr with h | h
      · exact absurd h a
      · exact absurd b h
  refine ⟨res, m', h1, ?_, ?_⟩
  · rintro rfl
    cases news with
    | nil => exact h2
    | cons x xs => exact absurd (hall x (by simp)) (by simp)
  · intro q hq
    obtain ⟨c, _, _, hin, _⟩ := h4 q hq
    refine ⟨c, ?_⟩
    have hn := hm'.1
    rw [h2, List.map_append] at hn
    have hn := (List.nodup_append.mp hn).1
    match news, hall, hin, hn, h2 with
    | [x], hall, hin, _, h2 => rw [h2, ← List.mem_singleton.mp hin]; rfl
    | x :: y :: xs, hall, _, hn, _ =>
      have e1 := hall x (by simp)
      have e2 := hall y (by simp)
      rw [e1] at e2
      injection e2 with e2
      rw [List.map_cons, List.nodup_cons] at hn
      exact absurd (by simp [e2]) hn.1

/-- C102 on a telegram with one volume record, when the third allocation (the function text) fails. -/
example (junk0 : Nat → Byte) (junk : Nat → Nat → Byte) (v : VarData) (hr : v.records = [volumeItem.1]) :
    ∃ res m', variableXmlNormalizedOwned junk0 junk v ⟨8, [(7, [1, 2])], [true, true, false]⟩ = .ok (res, m') ∧
      (res = none → m'.live = [(7, [1, 2])]) ∧ (∀ q, res = some q → ∃ c, m'.live = [(q, c), (7, [1, 2])]) := by
  have hd : Delivered volumeItem.1 := volume_reads.delivered _ (by simp)
  have hs : StorageOk volumeItem.1 := ⟨by decide, by decide +kernel⟩
  refine C102_clean_partial junk0 junk v (by rw [hr]; decide) ?_ ?_ ?_ _ ⟨by simp, by simp⟩
  · intro r h
    rw [hr] at h
    rw [List.mem_singleton.mp h]
    exact ⟨hd, hs⟩
  · intro r h j n leak hp
    rw [hr] at h
    rw [List.mem_singleton.mp h] at hp
    refine C79_plain_partial j _ n leak hd hs hp (.inr ⟨?_, ?_⟩)
    · have : parseVariableRecord j volumeItem.1 = .ok (some ⟨.num ((Flt.lit 5).mul (.lit (1/1000))), some (cs! "m^3"), cs! "Instantaneous value", some (cs! "Volume"), -1, -1, 0⟩, none) := by
        rfl
      rw [this] at hp
      injection hp with hp
      injection hp with hp
      injection hp with hp
      rw [← hp]
      decide
    · intro t ht
      cases ht
  · intro r h
    rw [hr] at h
    rw [List.mem_singleton.mp h]
    exact .inr (by decide)

/-! Direct instances of the theorems above. -/

theorem sample_mem (answers : List Bool) : MemOk ⟨8, [(7, [1, 2])], answers⟩ := ⟨by simp, by simp⟩
example := C101_granting (fun _ => 7) volumeItem.1 volume_delivered volume_storage ⟨8, [(7, [1, 2])], [true, true]⟩ (sample_mem _) (by unfold Granting; decide)
/-- the first allocation succeeds, the second fails -/
example := C101_fixed 0x40 0x29 [0x78, 0x56, 0x34, 0x12] (by decide) ⟨8, [(7, [1, 2])], [true, false]⟩ (sample_mem _)

end Mbus
