import Verif.Lemmas.Owned
import Verif.Lemmas.XmlExactNorm
/- The normalised XML with memory, for records of any length. -/
namespace Mbus
open Spec

/-- Printing given normalised records into a buffer that grows as needed. -/
def reprint (junk : Nat → Nat → Byte) : List (Option NRecord) → Nat → List Byte → XBuf → C XBuf
  | [], _, _, b => .ok b
  | n :: ns, i, e, b => nrecordXml n i e (b.grow (scratch (junk i) 3)) >>= fun p => reprint junk ns (i + 1) p.2 p.1

theorem reprint_fares (junk : Nat → Nat → Byte) (ns : List (Option NRecord)) (h : ∀ n ∈ ns, ∀ k, n = some k → NFit k) (start : Nat) :
    ∀ (e : List Byte), e.length = 768 → ∀ (b : XBuf) (room : Room) (t : List Byte), Shows b room t →
      Fares (reprint junk ns start e b) (room.records ((normGroupsCut start ns).map lineLengths))
        (fun r' b' => Shows b' r' (t ++ (normGroupsCut start ns).flatMap Group.render)) := by
  induction ns generalizing start with
  | nil => exact fun e he b room t hb => .ok (by simpa [normGroupsCut] using hb)
  | cons n ns ih =>
    intro e he b room t hb
    have ec : normGroupsCut start (n :: ns) = normGroupCut start n :: normGroupsCut (start + 1) ns := by simp [normGroupsCut, List.zipIdx_cons]
    rw [ec]
    unfold reprint
    simp only [List.map_cons, Room.records]
    refine (nrecord_fares (grow_shows (scratch (junk start) 3) hb) e he n (h n (List.mem_cons_self ..)) start).bind fun r' p hp => ?_
    refine (ih (fun n hn => h n (List.mem_cons_of_mem _ hn)) (start + 1) p.2 hp.1 p.1 _ _ hp.2).mono fun r2 b2 hb2 => ?_
    simpa using hb2

theorem lacking_fit {full n : NRecord} (h : Lacking full n) (hr : NFit full) : NFit n := by
  obtain ⟨v, f, d, t, s, u, q⟩ := h
  refine ⟨by rw [f]; exact hr.function, by rw [s]; exact hr.storage, by rw [t]; exact hr.tariff, by rw [d]; exact hr.device, ?_, ?_, ?_⟩
  · rcases u with h | h <;> rw [h]
    · exact hr.unit
    · simp
  · rcases q with h | h <;> rw [h]
    · exact hr.quantity
    · simp
  · rw [v]; exact hr.value

theorem pointwise_right {α β : Type} {R : α → β → Prop} {as : List α} {bs : List β} (h : Pointwise R as bs) : ∀ b ∈ bs, ∃ a ∈ as, R a b := by
  induction h with
  | nil => simp
  | cons hab _ ih =>
    intro b hb
    rcases List.mem_cons.mp hb with rfl | hb
    · exact ⟨_, List.mem_cons_self .., hab⟩
    · obtain ⟨a, ha, h⟩ := ih b hb
      exact ⟨a, List.mem_cons_of_mem _ ha, h⟩

theorem full_results (junk : Nat → Byte) (rs : List Record) (h : ∀ r ∈ rs, Delivered r ∧ StorageOk r) : ∃ ns, Pointwise ShownAs rs ns := by
  induction rs with
  | nil => exact ⟨[], .nil⟩
  | cons r rs ih =>
    obtain ⟨ns, hns⟩ := ih (fun r hr => h r (List.mem_cons_of_mem _ hr))
    obtain ⟨n, leak, hp, _⟩ := normalised_fit (h r (List.mem_cons_self ..)).1 (h r (List.mem_cons_self ..)).2 junk
    exact ⟨none :: ns, .cons ⟨junk, n, leak, hp, .inl rfl⟩ hns⟩

/-- The record loop on the heap gives up, or does exactly what printing some list of records does. -/
theorem nrecordsOwned_replays (junk : Nat → Nat → Byte) (all : List Record) {m0 : Mem} (hm : MemOk m0) (rs : List Record) (hsub : ∀ r ∈ rs, r ∈ all)
    (h : ∀ r ∈ rs, Delivered r ∧ StorageOk r) (start : Nat) (e : List Byte)
    (b : XBuf) (p : Nat) (m : Mem) (news : List (Nat × List Byte)) (hg : Grown m0 m news)
    (hp : p ∈ news.map (·.1)) (hl : ∀ x ∈ news, x.1 ≠ p → LostText all x) :
    (∃ m' news', nrecordsOwned junk rs start e b p m = .ok (none, m') ∧ Grown m0 m' news' ∧ (∀ x ∈ news', LostText all x) ∧ ¬ Granting m) ∨
    ∃ ns, Pointwise ShownAs rs ns ∧ (Granting m → nrecordsXml junk rs start e b = reprint junk ns start e b) ∧
      ((∃ f, reprint junk ns start e b = .error f ∧ nrecordsOwned junk rs start e b p m = .error f) ∨
       ∃ b' p' m' news', reprint junk ns start e b = .ok b' ∧ nrecordsOwned junk rs start e b p m = .ok (some (b', p'), m') ∧ Grown m0 m' news' ∧
         p' ∈ news'.map (·.1) ∧ (∀ x ∈ news', x.1 ≠ p' → LostText all x)) := by
  induction rs generalizing start e b p m news with
  | nil => exact .inr ⟨[], .nil, fun _ => rfl, .inr ⟨b, p, m, news, rfl, rfl, hg, hp, hl⟩⟩
  | cons r rs ih =>
    obtain ⟨hd, hst⟩ := h r (List.mem_cons_self ..)
    obtain ⟨x, leak, res, m1, own, hpr, hpo, g1, gr1, hand, handAll⟩ := variableOwned_runs (junk := junk start) hd hst (hg.ok hm)
    have gt := hg.trans g1
    -- the blocks of the record are not the buffer
    have hpown : p ∉ own.map (·.1) := by
      intro hin
      have hn := gt.nodup
      rw [List.map_append, List.nodup_append] at hn
      exact hn.2.2 p hin p hp rfl
    have hother : ∀ y ∈ own, y.1 ≠ p := fun y hy he => hpown (he ▸ List.mem_map_of_mem (f := fun x : Nat × List Byte => x.1) hy)
    -- releasing the record leaves only lost texts
    have release : ∀ (m2 : Mem) (ys : List (Nat × List Byte)), Grown m0 m2 ys → (∀ y ∈ own, y.1 ∈ ys.map (·.1)) →
        ∃ m3 zs, recordFree m2 res = .ok m3 ∧ Grown m0 m3 zs ∧ (∀ z ∈ zs, z ∈ ys) ∧ m3.answers = m2.answers ∧
          (∀ z ∈ zs, z.1 ∈ own.map (·.1) → z ∉ own ∨ LostText all z) ∧ (∀ y ∈ ys, y.1 ∉ own.map (·.1) → y ∈ zs) := by
      intro m2 ys gy hys
      cases res with
      | none =>
        refine ⟨m2, ys, rfl, gy, fun _ h => h, rfl, ?_, fun y hy _ => hy⟩
        intro z hz hzo
        rcases hand with rfl | ⟨rfl, a, s, hleak, rfl⟩
        · cases hzo
        · by_cases hzin : z ∈ [(a, s)]
          · refine .inr ⟨r, hsub r (List.mem_cons_self ..), junk start, ?_⟩
            rw [hpr, hleak, List.mem_singleton.mp hzin]
          · exact .inl hzin
      | some w =>
        obtain ⟨hperm, _⟩ := hand
        have hnd : (ownBlocks w).Nodup := hperm.nodup_iff.mpr g1.nodup
        obtain ⟨m3, e3, g3, a3⟩ := recordFree_grown hm gy w hnd (by
          intro a ha
          obtain ⟨y, hy, rfl⟩ := List.mem_map.mp (hperm.mem_iff.mp ha)
          exact hys y hy)
        refine ⟨m3, _, e3, g3, fun z hz => (List.mem_filter.mp hz).1, a3, ?_, ?_⟩
        · intro z hz hzo
          have := (List.mem_filter.mp hz).2
          simp only [decide_eq_true_eq] at this
          exact absurd (hperm.mem_iff.mpr hzo) this
        · intro y hy hyo
          refine List.mem_filter.mpr ⟨hy, ?_⟩
          simp only [decide_eq_true_eq]
          exact fun hin => hyo (hperm.mem_iff.mp hin)
    unfold nrecordsOwned
    rw [hpo, ok_bind]
    dsimp only
    -- growing the buffer
    have grown : (∃ m2, growOwned (scratch (junk start) 3) b p m1 = .ok (none, m2) ∧ Grown m0 m2 (own ++ news) ∧ ¬ Granting m1) ∨
        (∃ m2 p' ys, growOwned (scratch (junk start) 3) b p m1 = .ok (some (b.grow (scratch (junk start) 3), p'), m2) ∧ Grown m0 m2 ys ∧
          (Granting m1 → Granting m2) ∧ p' ∈ ys.map (·.1) ∧ p' ∉ own.map (·.1) ∧ (∀ y ∈ own, y ∈ ys) ∧
          (∀ y ∈ ys, y.1 ≠ p' → y ∈ own ∨ LostText all y)) := by
      unfold growOwned
      by_cases hcond : b.len ≤ b.mem.length ∧ b.mem.length - b.len < 1024
      · rw [if_pos hcond]
        rcases alloc_cases m1 (b.grow (scratch (junk start) 3)).mem with ⟨m2, e2, g2, hg2⟩ | ⟨m2, e2, g2, hg2⟩
        · rw [e2]
          dsimp only
          have gg := gt.trans g2
          obtain ⟨m3, e3, g3, a3⟩ := free_grown hm gg p (by simp only [List.map_append, List.mem_append]; exact .inr (.inr hp))
          rw [e3, ok_bind]
          have hne : m1.next ∉ (own ++ news).map (·.1) := by
            intro hin
            obtain ⟨y, hy, hyn⟩ := List.mem_map.mp hin
            have := gt.young y hy
            omega
          refine .inr ⟨m3, m1.next, _, rfl, g3, fun hgr => granting_of_eq a3 (hg2 hgr), ?_, ?_, ?_, ?_⟩
          · refine List.mem_map.mpr ⟨(m1.next, (b.grow (scratch (junk start) 3)).mem), List.mem_filter.mpr ⟨by simp, ?_⟩, rfl⟩
            simp only [decide_eq_true_eq]
            intro heq
            apply hne
            rw [heq, List.map_append]
            exact List.mem_append_right _ hp
          · exact fun hin => hne (by rw [List.map_append]; exact List.mem_append_left _ hin)
          · intro y hy
            refine List.mem_filter.mpr ⟨by simp [hy], ?_⟩
            simp only [decide_eq_true_eq]
            exact hother y hy
          · intro y hy hyp
            obtain ⟨hy1, hy2⟩ := List.mem_filter.mp hy
            simp only [decide_eq_true_eq] at hy2
            simp only [List.mem_append, List.mem_singleton] at hy1
            rcases hy1 with rfl | hy1 | hy1
            · exact absurd rfl hyp
            · exact .inl hy1
            · exact .inr (hl y hy1 hy2)
        · rw [e2]
          exact .inl ⟨m2, rfl, gt.trans g2, hg2⟩
      · rw [if_neg hcond]
        refine .inr ⟨m1, p, own ++ news, by rw [grow_id hcond], gt, id, ?_, hpown, fun y hy => List.mem_append_left _ hy, ?_⟩
        · rw [List.map_append]; exact List.mem_append_right _ hp
        · intro y hy hyp
          rcases List.mem_append.mp hy with hy | hy
          · exact .inl hy
          · exact .inr (hl y hy hyp)
    rcases grown with ⟨m2, e2, g2, hng⟩ | ⟨m2, p', ys, e2, g2, gr2, hp', hpo', hown, hys⟩
    · -- realloc failed
      rw [e2, ok_bind]
      dsimp only
      obtain ⟨m3, zs, e3, g3, hzs, a3, hz1, hz2⟩ := release m2 _ g2 (fun y hy => by rw [List.map_append]; exact List.mem_append_left _ (List.mem_map_of_mem hy))
      rw [e3, ok_bind]
      have hpz : p ∈ zs.map (·.1) := by
        obtain ⟨y, hy, rfl⟩ := List.mem_map.mp hp
        exact List.mem_map_of_mem (hz2 y (List.mem_append_right _ hy) hpown)
      obtain ⟨m4, e4, g4, _⟩ := free_grown hm g3 p hpz
      rw [e4, ok_bind]
      refine .inl ⟨m4, _, rfl, g4, ?_, fun hgr => hng (gr1 hgr)⟩
      intro z hz
      obtain ⟨hz', hzp⟩ := List.mem_filter.mp hz
      simp only [decide_eq_true_eq] at hzp
      rcases List.mem_append.mp (hzs z hz') with hzo | hzn
      · rcases hz1 z hz' (List.mem_map_of_mem hzo) with hh | hh
        · exact absurd hzo hh
        · exact hh
      · exact hl z hzn hzp
    · rw [e2, ok_bind]
      dsimp only
      -- what is printed
      obtain ⟨n, hread, hprint, hfull⟩ : ∃ n, readRecord m2 res = .ok n ∧ Printed x n ∧ (Granting m → n = x) := by
        cases res with
        | none =>
          refine ⟨none, rfl, .inl rfl, fun hgr => ?_⟩
          have := handAll hgr
          cases x with
          | none => rfl
          | some f => obtain ⟨w, hw, _⟩ := this; cases hw
        | some w =>
          obtain ⟨hperm, full, n, rfl, hrd, hlack⟩ := hand
          have hload : ∀ a ∈ ownBlocks w, m2.load a = m1.load a := by
            intro a ha
            obtain ⟨y, hy, hya⟩ := List.mem_map.mp (hperm.mem_iff.mp ha)
            have k1 : (a, y.2) ∈ m2.live := by
              rw [g2.live, ← hya]
              exact List.mem_append_left _ (hown y hy)
            have k2 : (a, y.2) ∈ m1.live := by
              rw [g1.live, ← hya]
              exact List.mem_append_left _ hy
            rw [load_live (g2.ok hm) k1, load_live (gt.ok hm) k2]
          refine ⟨some n, ?_, .inr ⟨full, n, rfl, rfl, hlack⟩, fun hgr => ?_⟩
          · show (w.read m2 >>= _) = _
            rw [read_same w hload, hrd, ok_bind]
          · obtain ⟨w', hw', hrd'⟩ := handAll hgr
            injection hw' with hw'
            subst hw'
            rw [hrd] at hrd'
            injection hrd' with hrd'
            rw [hrd']
      rw [hread, ok_bind]
      have hpure : Granting m → nrecordsXml junk (r :: rs) start e b =
          (nrecordXml n start e (b.grow (scratch (junk start) 3)) >>= fun p => nrecordsXml junk rs (start + 1) p.2 p.1) := by
        intro hgr
        rw [hfull hgr]
        conv => lhs; unfold nrecordsXml
        rw [hpr, ok_bind]
      cases hrun : nrecordXml n start e (b.grow (scratch (junk start) 3)) with
      | error f =>
        obtain ⟨ns, hns⟩ := full_results (junk start) rs (fun r hr => h r (List.mem_cons_of_mem _ hr))
        refine .inr ⟨n :: ns, .cons ⟨_, _, _, hpr, hprint⟩ hns, fun hgr => ?_, .inl ⟨f, ?_, rfl⟩⟩
        · rw [hpure hgr, reprint, hrun]; rfl
        · rw [reprint, hrun]; rfl
      | ok be =>
      obtain ⟨b', e'⟩ := be
      rw [ok_bind]
      dsimp only
      obtain ⟨m3, zs, e3, g3, hzs, a3, hz1, hz2⟩ := release m2 ys g2 (fun y hy => List.mem_map_of_mem (hown y hy))
      rw [e3, ok_bind]
      have hpz : p' ∈ zs.map (·.1) := by
        obtain ⟨y, hy, rfl⟩ := List.mem_map.mp hp'
        exact List.mem_map_of_mem (hz2 y hy hpo')
      have hlz : ∀ z ∈ zs, z.1 ≠ p' → LostText all z := by
        intro z hz hzp
        rcases hys z (hzs z hz) hzp with hzo | hzl
        · rcases hz1 z hz (List.mem_map_of_mem hzo) with hh | hh
          · exact absurd hzo hh
          · exact hh
        · exact hzl
      have hstep : ∀ ns, reprint junk (n :: ns) start e b = reprint junk ns (start + 1) e' b' := by
        intro ns
        rw [reprint, hrun]; rfl
      rcases ih (fun r hr => hsub r (List.mem_cons_of_mem _ hr)) (fun r hr => h r (List.mem_cons_of_mem _ hr)) (start + 1) e' b' p' m3 zs g3 hpz hlz with
        ⟨m', news', k1, k2, k3, k4⟩ | ⟨ns, k1, k2, k3⟩
      · exact .inl ⟨m', news', k1, k2, k3, fun hgr => k4 (granting_of_eq a3 (gr2 (gr1 hgr)))⟩
      · refine .inr ⟨n :: ns, .cons ⟨_, _, _, hpr, hprint⟩ k1, fun hgr => ?_, ?_⟩
        · rw [hpure hgr, hrun, hstep]
          exact k2 (granting_of_eq a3 (gr2 (gr1 hgr)))
        · rw [hstep]
          exact k3

end Mbus
