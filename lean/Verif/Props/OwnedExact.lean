import Verif.Lemmas.OwnedExact
import Verif.Props.Owned
/- C102 for records of any length. -/
namespace Mbus
open Spec

/-- C102: whatever allocations fail and however long the texts of the records are, the call returns NULL - then an allocation was refused and at most texts
of records with an unassigned VIF stay behind - or does exactly what the lengths of the texts shown for the records determine: it writes outside its buffer,
or it returns one new block with the document or its first characters. Records may appear empty or without unit or quantity; if no allocation fails,
everything is as with plentiful memory. -/
theorem C102_exact (junk0 : Nat → Byte) (junk : Nat → Nat → Byte) (v : VarData) (hd : ∀ r ∈ v.records, Delivered r ∧ StorageOk r) (m : Mem) (hm : MemOk m) :
    (∃ m' news, variableXmlNormalizedOwned junk0 junk v m = .ok (none, m') ∧ MemOk m' ∧ m'.live = news ++ m.live ∧
      (news ≠ [] → ∃ r ∈ v.records, ¬ Special r ∧ UnknownUnit r) ∧ ¬ Granting m) ∨
    ∃ p ns text, productName v.header = .ok p ∧ Pointwise ShownAs v.records ns ∧
      Meets text (fun c => c) (document (slaveGroup v.header p (mediumLookup v.header.medium) :: normGroupsCut 0 ns))
        (xmlFate (startLength (slaveGroup v.header p (mediumLookup v.header.medium))) ((normGroupsCut 0 ns).map lineLengths)) ∧
      (Granting m → variableXmlNormalized junk0 junk v = text) ∧
      (∀ f, text = .error f → variableXmlNormalizedOwned junk0 junk v m = .error f) ∧
      ∀ c, text = .ok c → ∃ q m' news, variableXmlNormalizedOwned junk0 junk v m = .ok (some q, m') ∧ MemOk m' ∧ m'.live = news ++ m.live ∧
        m'.load q = .ok c ∧ (q, c) ∈ news ∧ ∀ x ∈ news, x.1 ≠ q → ∃ r ∈ v.records, ¬ Special r ∧ UnknownUnit r := by
  obtain ⟨p, hp, _⟩ := productName_plain v.header
  have hstart : ∃ b3, Shows b3 ⟨8192, startLength (slaveGroup v.header p (mediumLookup v.header.medium)), none⟩
      (cs! "<?xml version=\"1.0\" encoding=\"ISO-8859-1\"?>\n<MBusData>\n\n" ++ (slaveGroup v.header p (mediumLookup v.header.medium)).render) ∧
      ∀ (α : Type) (k : XBuf → C α), (do
        let b : XBuf := ⟨malloc (scratch junk0 3) 8192, 0⟩
        let b ← b.put XML_PI
        let b ← b.put (cs! "<MBusData>\n\n")
        let t ← headerXml junk0 v.header
        let b ← b.put t
        k b) = k b3 := by
    obtain ⟨p', hp', h1, h2, h3⟩ := headerXml_runs junk0 v.header
    rw [hp] at hp'
    injection hp' with hp'
    subst hp'
    obtain ⟨b1, e1, hb1⟩ := put_runs (holds_new (scratch junk0 3) 8192) XML_PI (by simp [XML_PI])
    obtain ⟨b2, e2, hb2⟩ := put_runs hb1.holds (cs! "<MBusData>\n\n") (by simp [XML_PI])
    obtain ⟨b3, e3, hb3⟩ := put_runs hb2.holds (slaveGroup v.header p (mediumLookup v.header.medium)).render (by simp [XML_PI]; omega)
    have hb3' : Text b3 8192 (cs! "<?xml version=\"1.0\" encoding=\"ISO-8859-1\"?>\n<MBusData>\n\n" ++
        (slaveGroup v.header p (mediumLookup v.header.medium)).render) := by simpa [XML_PI] using hb3
    refine ⟨b3, ?_, fun α k => ?_⟩
    · have := roomy_shows hb3'
      rw [List.length_append] at this
      exact this
    · dsimp only
      rw [e1, ok_bind, e2, ok_bind, h1, ok_bind, e3, ok_bind]
  obtain ⟨b3, hb3, hrun⟩ := hstart
  unfold variableXmlNormalizedOwned
  rcases alloc_cases m (malloc (scratch junk0 3) 8192) with ⟨m1, e1, g1, hg1⟩ | ⟨m1, e1, g1, hg1⟩
  · rw [e1]
    dsimp only
    have hrun' := fun α k => hrun α k
    dsimp only at hrun'
    rw [hrun']
    rcases nrecordsOwned_replays junk v.records hm v.records (fun _ h => h) hd 0 (List.replicate 768 0) b3 m.next m1 _ g1 (by simp)
      (by intro x hx hne; rw [List.mem_singleton.mp hx] at hne; exact absurd rfl hne) with ⟨m', news, r1, r2, r3, r4⟩ | ⟨ns, r1, r2, r3⟩
    · rw [r1, ok_bind]
      refine .inl ⟨m', news, rfl, r2.ok hm, r2.live, fun hne => ?_, fun hg => r4 (hg1 hg)⟩
      obtain ⟨x, hx⟩ := List.exists_mem_of_ne_nil _ hne
      exact lost_unknown hd (r3 x hx)
    · refine .inr ⟨p, ns, reprint junk ns 0 (List.replicate 768 0) b3 >>= fun b => b.put (cs! "</MBusData>\n") >>= fun b => .ok b.mem, hp, r1, ?_, ?_, ?_, ?_⟩
      · refine fares_meets ?_
        refine (reprint_fares junk ns ?_ 0 _ List.length_replicate b3 _ _ hb3).bind fun room b' hb' => ?_
        · intro n hn k hk
          obtain ⟨r, hr, j, full, leak, h1, h2⟩ := pointwise_right r1 n hn
          obtain ⟨n', leak', h3, h4⟩ := normalised_fit (hd r hr).1 (hd r hr).2 j
          rw [h1] at h3
          injection h3 with h3
          injection h3 with h3 _
          rcases h2 with h2 | ⟨f, g, h5, h6, h7⟩
          · rw [hk] at h2; cases h2
          · rw [hk] at h6
            injection h6 with h6
            subst h6
            exact lacking_fit h7 (h4 f (by rw [← h3, h5]))
        · refine (close_fares hb' (fun m => m)).mono fun r a ha => ?_
          simpa [document] using ha
      · intro hg
        unfold variableXmlNormalized
        have := hrun' _ (fun b => nrecordsXml junk v.records 0 (List.replicate 768 0) b >>= fun b => b.put (cs! "</MBusData>\n") >>= fun b => .ok b.mem)
        refine this.trans ?_
        rw [r2 (hg1 hg)]
      · intro f hf
        rcases r3 with ⟨f', k1, k2⟩ | ⟨b', p', m', news', k1, k2, _⟩
        · rw [k1] at hf
          rw [k2]
          cases hf
          rfl
        · rw [k1, ok_bind] at hf
          rw [k2, ok_bind]
          dsimp only
          cases hput : b'.put (cs! "</MBusData>\n") with
          | error e => rw [hput] at hf; cases hf; rfl
          | ok b5 => rw [hput] at hf; cases hf
      · intro c hc
        rcases r3 with ⟨f', k1, k2⟩ | ⟨b', p', m', news', k1, k2, k3, k4, k5⟩
        · rw [k1] at hc; cases hc
        · rw [k1, ok_bind] at hc
          rw [k2, ok_bind]
          dsimp only
          cases hput : b'.put (cs! "</MBusData>\n") with
          | error e => rw [hput] at hc; cases hc
          | ok b5 =>
            rw [hput, ok_bind] at hc
            injection hc with hc
            rw [ok_bind, hc]
            have g3 := grown_store hm k3 k4 c
            have hin : (p', c) ∈ news'.map fun x => if x.1 = p' then (p', c) else x := by
              obtain ⟨y, hy, hyq⟩ := List.mem_map.mp k4
              exact List.mem_map.mpr ⟨y, hy, by rw [if_pos hyq]⟩
            refine ⟨p', _, _, rfl, g3.ok hm, g3.live, load_live (g3.ok hm) (by rw [g3.live]; exact List.mem_append_left _ hin), hin, ?_⟩
            intro x hx hne
            obtain ⟨z, hz, rfl⟩ := List.mem_map.mp hx
            by_cases hzq : z.1 = p'
            · rw [if_pos hzq] at hne
              exact absurd rfl hne
            · exact lost_unknown hd (k5 z hz hzq)
  · rw [e1]
    exact .inl ⟨m1, [], rfl, g1.ok hm, g1.live, by simp, hg1⟩

/-- C102 fails for the telegram of C79_overflow_violation: even if no allocation is refused, the document is written beyond the end of its block. -/
theorem C102_overflow_violation (junk0 : Nat → Byte) (junk : Nat → Nat → Byte) (m : Mem) (hm : MemOk m) (hg : Granting m) :
    ∃ x, frameDataParse normOverflowTelegram FrameData.new = .ok (0, x) ∧
      ∃ i, variableXmlNormalizedOwned junk0 junk x.var m = .error (.oobWrite 8192 i) := by
  obtain ⟨x, hx, i, hi⟩ := C79_overflow_violation junk0 junk
  obtain ⟨_, y, hp, ht, hh, hrs⟩ := normOverflow_reads
  rw [hx] at hp
  injection hp with hp
  injection hp with _ hp
  subst hp
  refine ⟨x, hx, i, ?_⟩
  have hd : ∀ r ∈ x.var.records, Delivered r ∧ StorageOk r := by
    intro r hr
    rw [hrs] at hr
    refine ⟨normOverflow_reads.delivered r hr, ?_⟩
    rcases List.mem_append.mp hr with h | h
    · rw [(List.mem_replicate.mp h).2]; exact ⟨by decide, by decide +kernel⟩
    · rw [List.mem_singleton.mp h]; exact ⟨by decide +kernel, by decide +kernel⟩
  have hv : variableXmlNormalized junk0 junk x.var = .error (.oobWrite 8192 i) := by
    unfold frameDataXmlNormalized at hi
    rw [ht, if_neg (by decide), if_pos rfl] at hi
    cases h : variableXmlNormalized junk0 junk x.var with
    | error e => rw [h] at hi; cases hi; rfl
    | ok c => rw [h] at hi; cases hi
  rcases C102_exact junk0 junk x.var hd m hm with ⟨_, _, _, _, _, _, h⟩ | ⟨p, ns, text, _, _, _, h1, h2, _⟩
  · exact absurd hg h
  · exact h2 _ ((h1 hg).symm.trans hv)

/-! Direct instance: one volume record, the third allocation fails. -/

example (junk0 : Nat → Byte) (junk : Nat → Nat → Byte) (v : VarData) (hr : v.records = [volumeItem.1]) :=
  C102_exact junk0 junk v (by intro r h; rw [hr, List.mem_singleton] at h; rw [h]; exact ⟨volume_delivered, volume_storage⟩)
    ⟨8, [(7, [1, 2])], [true, true, false]⟩ (sample_mem _)

end Mbus
