import Verif.Lemmas.XmlSame
import Verif.Props.Xml
/-
Property theorems C109: `mbus_frame_xml`, `mbus_frame_data_xml` and `mbus_data_variable_xml` when memory may run out.  `Excerpt` and `Agrees` are from
Spec/XmlMem.lean, `Grown`, `Kept`, `Granting`, `NextFails` from Spec/Owned.lean and Spec/SessionMem.lean.
-/
namespace Mbus
open Spec

theorem chain_delivered {t : Telegram} {ts : List Telegram} {h : VarHeader} {its : List Item} {tss : List (List Item)} (hread : Reads t.1 h (its.map (·.1)))
    (hi : Pointwise ItemsOf ts tss) : ∀ i ∈ its :: tss, ∀ it ∈ i, Delivered it.1 := by
  intro i hm it hit
  rcases List.mem_cons.mp hm with rfl | hm
  · exact hread.delivered _ (List.mem_map_of_mem hit)
  · have : ∀ {ts : List Telegram} {tss : List (List Item)}, Pointwise ItemsOf ts tss → i ∈ tss → Delivered it.1 := by
      intro ts tss hp
      induction hp with
      | nil => intro h; cases h
      | cons hx _ ih =>
        intro h
        rcases List.mem_cons.mp h with rfl | h
        · obtain ⟨⟨h, hr⟩, _⟩ := hx
          exact hr.delivered _ (List.mem_map_of_mem hit)
        · exact ih h
    exact this hi hm

/-- C109 for `mbus_frame_xml` and chains of variable-data telegrams (records restricted as in C56): whatever allocations fail, it either
returns NULL and leaves nothing behind, or returns one new block with a closed document of the first records of each telegram and leaves
nothing else behind; nothing is used after its release, nothing is released twice.  With every allocation granted the document is complete.
What is missing for the full property: the document may lack records although the call succeeded (`C109_cut_violation`). -/
theorem C109_frame_partial (junk0 : Nat → Byte) (junk : Nat → Nat → Byte) (t : Telegram) (ts : List Telegram) (h : VarHeader)
    (its : List Item) (tss : List (List Item)) (hread : Reads t.1 h (its.map (·.1))) (hst : ∀ it ∈ its, it.2.2 = t.2)
    (hi : Pointwise ItemsOf ts tss) (hs : ∀ i ∈ its :: tss, ∀ it ∈ i, Showable it ∧ StampOk it.2.2)
    (hc : total (its :: tss) < 2 ^ 31) (hk : (its :: tss).length < 2 ^ 31) (m : Mem) (hm : MemOk m) :
    ∃ r p, frameXmlOwned junk0 junk t ts m = .ok r ∧ productName h = .ok p ∧
      Excerpt m (fun l => document (slaveGroup h p (mediumLookup h.medium) :: readoutGroups l)) (its :: tss) r := by
  obtain ⟨p, hp, _⟩ := productName_plain h
  have hdel := chain_delivered hread hi
  obtain ⟨r, h1, h2⟩ := frameXmlOwned_runs junk0 junk t ts its tss h p hp hread hst hi
    (fun i hm it hit => (hs i hm it hit).1.ready (hdel i hm it hit) (hs i hm it hit).2) hc hk hm
  exact ⟨r, p, h1, hp, h2⟩

/-- C109 fails: when a record of the first telegram cannot be allocated (after `n` records), `mbus_frame_xml` does not report it; it returns a closed
document that lacks the remaining records of that telegram, and the records of the later telegrams follow as if nothing were missing. -/
theorem C109_cut_violation (junk0 : Nat → Byte) (junk : Nat → Nat → Byte) (t : Telegram) (ts : List Telegram) (h : VarHeader)
    (its : List Item) (tss : List (List Item)) (hread : Reads t.1 h (its.map (·.1))) (hst : ∀ it ∈ its, it.2.2 = t.2)
    (hi : Pointwise ItemsOf ts tss) (hs : ∀ i ∈ its :: tss, ∀ it ∈ i, Showable it ∧ StampOk it.2.2)
    (hc : total (its :: tss) < 2 ^ 31) (hk : (its :: tss).length < 2 ^ 31) (m : Mem) (hm : MemOk m) (n : Nat) (hn : n < its.length)
    (ha : m.answers = List.replicate n true ++ [false]) :
    ∃ q m' c p, frameXmlOwned junk0 junk t ts m = .ok (some q, m') ∧ Grown m m' [(q, c)] ∧ productName h = .ok p ∧
      document (slaveGroup h p (mediumLookup h.medium) :: readoutGroups (its.take n :: tss)) ++ [0] <+: c := by
  obtain ⟨p, hp, _⟩ := productName_plain h
  have hdel := chain_delivered hread hi
  obtain ⟨q, m', c, h1, h2, h3⟩ := frameXmlOwned_cut junk0 junk t ts its tss h p hp hread hst hi
    (fun i hm it hit => (hs i hm it hit).1.ready (hdel i hm it hit) (hs i hm it hit).2) hc hk hm n hn ha
  exact ⟨q, m', c, p, h1, h2, hp, h3⟩

/-- C109 for any chain of telegrams whatever (malformed ones, fixed data, error reports included): with every allocation granted, `mbus_frame_xml` on the
heap returns exactly the text, makes exactly the faults and leaves exactly the leaks described in C56-C58, C76-C78. -/
theorem C109_granted (junk0 : Nat → Byte) (junk : Nat → Nat → Byte) (t : Telegram) (ts : List Telegram) (m : Mem) (hm : MemOk m) (hg : Granting m) :
    Agrees m (frameXml junk0 junk t ts) (frameXmlOwned junk0 junk t ts m) :=
  frameXmlOwned_same junk0 junk t ts hm hg

/-- C109 fails: where C78 says that a text buffer and the records `lost` are lost, exactly these blocks stay on the heap after the call. -/
theorem C109_leak_violation (junk0 : Nat → Byte) (junk : Nat → Nat → Byte) (t : Telegram) (ts : List Telegram) (m : Mem) (hm : MemOk m) (hg : Granting m)
    (lost : List Record) (h : frameXml junk0 junk t ts = .ok ⟨none, true, lost⟩) :
    ∃ m' news, frameXmlOwned junk0 junk t ts m = .ok (none, m') ∧ Grown m m' news ∧ news.length = 1 + lost.length := by
  have h' := C109_granted junk0 junk t ts m hm hg
  rw [h] at h'
  obtain ⟨r, m', news, h1, h2, _, rfl, h4⟩ := h'
  exact ⟨m', news, h1, h2, h4⟩

/-- C109 for `mbus_data_variable_xml` (records restricted as in C56): NULL, or one new block with the complete document; the record list of the caller
stays as it is. -/
theorem C109_variable_partial (junk0 : Nat → Byte) (junk : Nat → Nat → Byte) (h : VarHeader) (its : List Item)
    (hd : ∀ it ∈ its, Delivered it.1 ∧ Showable it ∧ StampOk it.2.2) (hc : its.length < 2 ^ 31) (m0 m : Mem) (hm : MemOk m0) (recs : List Nat)
    (hl : recs.length = its.length) (hk : Kept m0 m recs) :
    ∃ r m', variableXmlOwned junk0 junk h (its.map fun it => (it.1, it.2.2)) recs m = .ok (r, m') ∧
      ((r = none ∧ Kept m0 m' recs ∧ ¬ Granting m) ∨
        ∃ q c p, r = some q ∧ Kept m0 m' (q :: recs) ∧ m'.load q = .ok c ∧ productName h = .ok p ∧
          document (slaveGroup h p (mediumLookup h.medium) :: recordGroups none 0 its) ++ [0] <+: c) := by
  obtain ⟨p, hp, _⟩ := productName_plain h
  obtain ⟨⟨r, m'⟩, h1, h2⟩ := variableXmlOwned_runs junk0 junk h p hp its (fun it hi => (hd it hi).2.1.ready (hd it hi).1 (hd it hi).2.2) hc hm recs hl hk
  refine ⟨r, m', h1, ?_⟩
  rcases h2 with h2 | ⟨q, u1, u2, _, c, u4, u5⟩
  · exact .inl h2
  · exact .inr ⟨q, c, p, u1, u2, u4, hp, u5⟩

theorem bufferOwned_runs {c : List Byte} {text : C (List Byte)} (ht : text = .ok c) {m : Mem} (hm : MemOk m) :
    ∃ r m', bufferOwned text m = .ok (r, m') ∧ ((r = none ∧ NextFails m ∧ m'.live = m.live) ∨ ∃ q, r = some q ∧ ¬ NextFails m ∧ Grown m m' [(q, c)]) := by
  subst ht
  unfold bufferOwned
  unfold Mem.alloc
  by_cases ha : m.answers.headD true
  · rw [if_pos ha]
    dsimp only
    have hk : Kept m ⟨m.next + 1, (m.next, []) :: m.live, m.answers.tail⟩ [m.next] := ⟨[(m.next, [])], ⟨rfl, by simp, by simp, by simp, by simp⟩, .refl _⟩
    refine ⟨_, _, rfl, .inr ⟨_, rfl, ?_, hk.store hm c⟩⟩
    intro hn
    unfold NextFails at hn
    cases hx : m.answers with
    | nil => rw [hx] at hn; cases hn
    | cons b bs =>
      rw [hx] at hn ha
      injection hn with hn
      subst hn
      cases ha
  · rw [if_neg ha]
    refine ⟨none, _, rfl, .inl ⟨rfl, ?_, rfl⟩⟩
    unfold NextFails
    cases hx : m.answers with
    | nil => rw [hx] at ha; exact absurd rfl ha
    | cons b bs =>
      rw [hx] at ha
      cases b with
      | false => rfl
      | true => exact absurd rfl ha

/-- C109 for error reports and fixed data: `mbus_frame_data_xml` returns NULL iff its one allocation is refused, and leaves nothing behind then; otherwise it
returns one new block with the text of C77. -/
theorem C109_buffer (junk0 : Nat → Byte) (junk : Nat → Nat → Byte) (x : FrameData) (stamps : List (Option (List Byte))) (recs : List Nat) (m : Mem) (hm : MemOk m)
    (ht : x.type = DATA_ERROR ∨ x.type = DATA_FIXED) :
    ∃ r m' c, frameDataXmlOwned junk0 junk x stamps recs m = .ok (r, m') ∧ frameDataXml junk0 junk x stamps = .ok (some c) ∧
      ((r = none ∧ NextFails m ∧ m'.live = m.live) ∨ ∃ q, r = some q ∧ ¬ NextFails m ∧ Grown m m' [(q, c)]) := by
  unfold frameDataXmlOwned frameDataXml
  rcases ht with ht | ht
  · rw [if_pos ht, if_pos ht]
    obtain ⟨c, _, hc, _⟩ := C77_error junk0 x.error
    obtain ⟨r, m', h1, h2⟩ := bufferOwned_runs hc hm
    exact ⟨r, m', c, h1, by rw [hc]; rfl, h2⟩
  · rw [if_neg (by rw [ht]; decide), if_pos ht, if_neg (by rw [ht]; decide), if_pos ht]
    obtain ⟨c, _, hc, _⟩ := C77_fixed junk0 x.fix
    obtain ⟨r, m', h1, h2⟩ := bufferOwned_runs hc hm
    exact ⟨r, m', c, h1, by rw [hc]; rfl, h2⟩

/-! ### concrete cases -/

theorem volume_two : ∀ i ∈ [[volumeItem], [volumeItem]], ∀ it ∈ i, Showable it ∧ StampOk it.2.2 := by
  intro i hi it hit
  have : i = [volumeItem] := by simpa using hi
  subst this
  rw [List.mem_singleton.mp hit]
  exact volume_showable

/-- The hypotheses of C109_frame_partial for two telegrams on a heap with two blocks where the third allocation is refused. -/
example : ∃ r p, frameXmlOwned (fun _ => 7) (fun _ _ => 7) (volumeTelegram, volumeItem.2.2) [(volumeTelegram, volumeItem.2.2)] ⟨9, [(3, [1]), (8, [])], [true, true, false]⟩ = .ok r ∧
    productName hdrHeader = .ok p ∧
    Excerpt ⟨9, [(3, [1]), (8, [])], [true, true, false]⟩ (fun l => document (slaveGroup hdrHeader p (mediumLookup hdrHeader.medium) :: readoutGroups l)) [[volumeItem], [volumeItem]] r :=
  C109_frame_partial _ _ _ _ hdrHeader [volumeItem] [[volumeItem]] volume_reads (by simp) (.cons ⟨⟨hdrHeader, volume_reads⟩, by simp⟩ .nil) volume_two
    (by decide) (by decide) _ ⟨by decide, by decide⟩

/-- The hypotheses of C109_cut_violation: the only record of the first telegram is refused; the document has one record instead of two. -/
example : ∃ q m' c p, frameXmlOwned (fun _ => 7) (fun _ _ => 7) (volumeTelegram, volumeItem.2.2) [(volumeTelegram, volumeItem.2.2)] ⟨0, [], [false]⟩ = .ok (some q, m') ∧
    Grown ⟨0, [], [false]⟩ m' [(q, c)] ∧ productName hdrHeader = .ok p ∧
    document (slaveGroup hdrHeader p (mediumLookup hdrHeader.medium) :: readoutGroups [[], [volumeItem]]) ++ [0] <+: c :=
  C109_cut_violation _ _ _ _ hdrHeader [volumeItem] [[volumeItem]] volume_reads (by simp) (.cons ⟨⟨hdrHeader, volume_reads⟩, by simp⟩ .nil) volume_two
    (by decide) (by decide) ⟨0, [], [false]⟩ ⟨by decide, by decide⟩ 0 (by decide) rfl

/-- C109_granted on the leak of C78: a malformed second telegram loses the text buffer. -/
example (junk0 : Nat → Byte) (junk : Nat → Nat → Byte) : ∃ m' news,
    frameXmlOwned junk0 junk (volumeTelegram, volumeItem.2.2) [(rsp 0x00 [], none)] ⟨0, [], []⟩ = .ok (none, m') ∧ Grown ⟨0, [], []⟩ m' news ∧ news.length = 1 := by
  have h := C109_leak_violation junk0 junk (volumeTelegram, volumeItem.2.2) [(rsp 0x00 [], none)] ⟨0, [], []⟩ ⟨by decide, by decide⟩ (by intro b hb; cases hb) []
    (C78_buffer_violation junk0 junk _ _ _ hdrHeader [volumeItem] volume_reads (by simp)
      (by intro it hi; rw [List.mem_singleton.mp hi]; exact volume_showable) (by decide) (by decide))
  exact h

/-- The hypotheses of C109_variable_partial: one record in block 4. -/
example : ∃ r m', variableXmlOwned (fun _ => 7) (fun _ _ => 7) hdrHeader [(volumeItem.1, volumeItem.2.2)] [4] ⟨5, [(4, []), (2, [1])], [false]⟩ = .ok (r, m') ∧
    ((r = none ∧ Kept ⟨3, [(2, [1])], []⟩ m' [4] ∧ ¬ Granting ⟨5, [(4, []), (2, [1])], [false]⟩) ∨
      ∃ q c p, r = some q ∧ Kept ⟨3, [(2, [1])], []⟩ m' [q, 4] ∧ m'.load q = .ok c ∧ productName hdrHeader = .ok p ∧
        document (slaveGroup hdrHeader p (mediumLookup hdrHeader.medium) :: recordGroups none 0 [volumeItem]) ++ [0] <+: c) :=
  C109_variable_partial _ _ hdrHeader [volumeItem]
    (by intro it hi; rw [List.mem_singleton.mp hi]; exact ⟨volume_reads.delivered _ (by simp), volume_showable⟩) (by decide) ⟨3, [(2, [1])], []⟩ _
    ⟨by decide, by decide⟩ [4] rfl ⟨[(4, [])], ⟨rfl, by decide, by decide, by decide, by decide⟩, .refl _⟩

end Mbus
