import Verif.Lemmas.XmlMemExact
import Verif.Props.XmlExact
import Verif.Props.XmlMem
/- C109 for records of any length. -/
namespace Mbus
open Spec

/-- C109 for `mbus_frame_xml`, for every chain of variable-data telegrams with records of any length, whatever allocations fail: it returns NULL and leaves
the heap as it was (then an allocation was refused); or the outcome is that of the document of the first records `tss'` of each telegram as determined by
the lengths of its texts (C113): a write outside the buffer, or one new block with the document or its first characters, and nothing else is left behind.
With every allocation granted `tss'` are all records. -/
theorem C109_frame_exact (junk0 : Nat → Byte) (junk : Nat → Nat → Byte) (t : Telegram) (ts : List Telegram) (h : VarHeader)
    (its : List Item) (tss : List (List Item)) (hread : Reads t.1 h (its.map (·.1))) (hst : ∀ it ∈ its, it.2.2 = t.2)
    (hi : Pointwise ItemsOf ts tss) (hs : ∀ i ∈ its :: tss, ∀ it ∈ i, Spec.Writable it ∧ StampOk it.2.2)
    (hc : total (its :: tss) < 2 ^ 31) (hk : (its :: tss).length < 2 ^ 31) (m : Mem) (hm : MemOk m) :
    (∃ m', frameXmlOwned junk0 junk t ts m = .ok (none, m') ∧ Grown m m' [] ∧ ¬ Granting m) ∨
    ∃ p tss' text, productName h = .ok p ∧ Pointwise (fun a b => a <+: b) tss' (its :: tss) ∧ (Granting m → tss' = its :: tss) ∧
      Meets text (fun c => c) (document (slaveGroup h p (mediumLookup h.medium) :: readoutGroupsCut tss'))
        (xmlFate (startLength (slaveGroup h p (mediumLookup h.medium))) (whole (readoutGroupsCut tss'))) ∧
      (∀ f, text = .error f → frameXmlOwned junk0 junk t ts m = .error f) ∧
      ∀ c, text = .ok c → ∃ q m', frameXmlOwned junk0 junk t ts m = .ok (some q, m') ∧ Grown m m' [(q, c)] := by
  obtain ⟨p, hp, _⟩ := productName_plain h
  rcases frameXmlOwned_fares junk0 junk t ts its tss h p hp hread hst hi
    (fun i hm it hit => (hs i hm it hit).1.fit (items_delivered hread hi i hm it hit) (hs i hm it hit).2) hc hk hm with h1 | ⟨tss', h1, h2, h3⟩
  · exact .inl h1
  · refine .inr ?_
    rcases h3 with ⟨e1, n, i, e2⟩ | ⟨r, a, e1, e2, b', hb', q, hq, hg⟩
    · refine ⟨p, tss', .error (.oobWrite n i), hp, h1, h2, fares_meets (.inl ⟨e1, n, i, rfl⟩), ?_, ?_⟩
      · rintro f ⟨⟩
        exact e2
      · rintro c ⟨⟩
    · refine ⟨p, tss', .ok b'.mem, hp, h1, h2, fares_meets (.inr ⟨r, _, e1, rfl, b', hb', rfl⟩), ?_, ?_⟩
      · rintro f ⟨⟩
      · rintro c ⟨⟩
        obtain ⟨a1, a2⟩ := a
        dsimp only at hq hg
        subst hq
        exact ⟨q, a2, e2, hg⟩

theorem agrees_error {m : Mem} {x : C XmlOut} {y : C (Option Nat × Mem)} {e : Fault} (hx : x = .error e) (h : Agrees m x y) : y = .error e := by
  subst hx
  exact h

theorem overflow_owned (junk0 : Nat → Byte) (junk : Nat → Nat → Byte) (t : Telegram) (m : Mem) (hm : MemOk m) (hg : Granting m) (e : Fault)
    (hx : frameXml junk0 junk t [] = .error e) : frameXmlOwned junk0 junk t [] m = .error e :=
  agrees_error hx (C109_granted junk0 junk t [] m hm hg)

/-- C109 fails for the telegram of C56_overflow_violation even with plentiful memory: the document is written beyond the end of its block. -/
theorem C109_overflow_violation (junk0 : Nat → Byte) (junk : Nat → Nat → Byte) (m : Mem) (hm : MemOk m) (hg : Granting m) :
    ∃ i, frameXmlOwned junk0 junk (overflowTelegram, none) [] m = .error (.oobWrite 8192 i) := by
  obtain ⟨i, hi⟩ := C56_overflow_violation junk0 junk
  exact ⟨i, overflow_owned junk0 junk _ m hm hg _ hi⟩

/-- The hypotheses of `C109_frame_exact`: the telegram of C113_cut, whose texts exceed the limits of C56, with a refused allocation. -/
example (junk0 : Nat → Byte) (junk : Nat → Nat → Byte) :
    (∃ m', frameXmlOwned junk0 junk (edgeTelegram, none) [] ⟨8, [(7, [1, 2])], [true, false]⟩ = .ok (none, m') ∧ m'.live = [(7, [1, 2])]) ∨
    (∃ f, frameXmlOwned junk0 junk (edgeTelegram, none) [] ⟨8, [(7, [1, 2])], [true, false]⟩ = .error f) ∨
    ∃ q m' c, frameXmlOwned junk0 junk (edgeTelegram, none) [] ⟨8, [(7, [1, 2])], [true, false]⟩ = .ok (some q, m') ∧ m'.live = [(q, c), (7, [1, 2])] := by
  rcases C109_frame_exact junk0 junk (edgeTelegram, none) [] hdrHeader (List.replicate 32 flowItem ++ [edgeItem]) [] edge_reads (by
      intro it hit
      rcases List.mem_append.mp hit with h | h
      · rw [(List.mem_replicate.mp h).2]; rfl
      · rw [List.mem_singleton.mp h]; rfl) .nil (by
      intro i hi
      rw [List.mem_singleton.mp hi]
      exact edge_writable) (by simp [total]) (by simp) ⟨8, [(7, [1, 2])], [true, false]⟩ ⟨by simp, by simp⟩ with ⟨m', h1, h2, _⟩ | ⟨p, tss', text, _, _, _, _, h1, h2⟩
  · exact .inl ⟨m', h1, h2.live⟩
  · refine .inr ?_
    cases text with
    | error f => exact .inl ⟨f, h1 f rfl⟩
    | ok c =>
      obtain ⟨q, m', h3, h4⟩ := h2 c rfl
      exact .inr ⟨q, m', c, h3, h4.live⟩

end Mbus
