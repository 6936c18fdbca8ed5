import Verif.Lemmas.ScanExact
import Verif.Props.Scan
/-
C74 for every mask and every set of meters: exactly which meters a secondary scan reports.
-/
namespace Mbus
open Spec

/-- C74, exactly: a scan from position `pos` with any mask of hexadecimal digits (those of the identification number decimal or
wildcards) over any set of meters, also with other than decimal or equal identification numbers, returns 0 and reports, each once,
with its address and its response, exactly the meters that are the only one selected by some mask tried: the mask with its
first wildcard replaced by each decimal digit and, below the masks that select several meters, so on (`Isolated`). -/
theorem C74_exact (k : Kind) (env : Env) (ho : IsOpen k env) (hw : Mbus.Writable env) (purge : Int) (hk : purge ≠ PURGE_S2M) (st : Settings)
    (hst : 0 ≤ st.maxSearchRetry) (devs : List Device) (hf : Faithful devs env) (hread : ∀ d ∈ devs, d.Readable)
    (m : List Byte) (hm : AddressMask m) (hid : ∀ c ∈ m.take 8, IdDigit c) (pos : Nat) (hpos : pos < 16) (sent : List (List Byte)) :
    ∃ sent' log es, scanRange ((busLink k env).ops purge).logged st (⟨[], sent⟩, []) pos m = .ok (0, ⟨[], sent'⟩, log) ∧
      Pointwise Reports (foundOf log) es ∧ es.Nodup ∧ ∀ d, d ∈ es ↔ Isolated devs pos m d := by
  have hlen : ∀ d ∈ devs, d.address.length = 8 := by
    intro d hd
    have := (hread d hd).2.1
    unfold Device.address
    simp; omega
  obtain ⟨⟨⟨script, sent'⟩, log⟩, fs, es, e1, e2, e3, e4, e5, e6⟩ := scanAt_isolates (probes_wire k env ho hw purge hk devs hf hread st hst)
    hlen (15 - pos) (by omega) m ⟨hm, hid⟩ (⟨[], sent⟩, []) rfl
  simp only at e2
  subst e2
  simp only [foundOf, List.filterMap_nil, List.nil_append] at e3
  refine ⟨sent', log, es, ?_, ?_, e5, ?_⟩
  · unfold scanRange
    rw [if_neg (by have := hm.1; omega), if_neg (by omega), ← e1]
    congr 1
    simp only [Int.toNat_natCast]; omega
  · rw [show foundOf log = fs from e3]; exact e4
  · intro d
    rw [e6, show 15 - (15 - pos) = pos by omega]

/-- C74: without a wildcard after `pos` the mask itself decides: a meter is reported exactly if the mask selects it and no other. -/
theorem C74_full_address (k : Kind) (env : Env) (ho : IsOpen k env) (hw : Mbus.Writable env) (purge : Int) (hk : purge ≠ PURGE_S2M) (st : Settings)
    (hst : 0 ≤ st.maxSearchRetry) (devs : List Device) (hf : Faithful devs env) (hread : ∀ d ∈ devs, d.Readable)
    (m : List Byte) (hm : AddressMask m) (hid : ∀ c ∈ m.take 8, IdDigit c) (pos : Nat) (hpos : pos < 16) (hfix : Fixed pos m) (sent : List (List Byte)) :
    ∃ sent' log es, scanRange ((busLink k env).ops purge).logged st (⟨[], sent⟩, []) pos m = .ok (0, ⟨[], sent'⟩, log) ∧
      Pointwise Reports (foundOf log) es ∧ es.Nodup ∧ ∀ d, d ∈ es ↔ (devs.filter fun d => selects (addressBytes m) d.address) = [d] := by
  obtain ⟨sent', log, es, h1, h2, h3, h4⟩ := C74_exact k env ho hw purge hk st hst devs hf hread m hm hid pos hpos sent
  exact ⟨sent', log, es, h1, h2, h3, fun d => (h4 d).trans (isolated_fixed hfix d)⟩

/-- two meters with the manufacturer byte 1F and one with 15, all with the same identification number -/
def oneNumber : List Device :=
  [⟨0x08, 1, [0x78, 0x56, 0x34, 0x12, 0x1F, 0x40, 1, 7, 0, 0, 0, 0]⟩,
   ⟨0x08, 2, [0x78, 0x56, 0x34, 0x12, 0x1F, 0x41, 1, 7, 0, 0, 0, 0]⟩,
   ⟨0x08, 3, [0x78, 0x56, 0x34, 0x12, 0x15, 0x40, 1, 7, 0, 0, 0, 0]⟩]

/-- the mask with this identification number -/
def numberMask : List Byte := [49, 50, 51, 52, 53, 54, 55, 56, 70, 70, 70, 70, 70, 70, 70, 70]

/-- a scan for the identification number of these three reports the third: asked for below 1F, where the other two collide; the
mask `12345678 15 FF FF FF` selects it alone -/
theorem oneNumber_third : Isolated oneNumber 0 numberMask ⟨0x08, 3, [0x78, 0x56, 0x34, 0x12, 0x15, 0x40, 1, 7, 0, 0, 0, 0]⟩ := by
  refine ⟨(numberMask.set 8 49).set 9 53, .inside (m1 := numberMask.set 8 49) (.inl ⟨8, 49, ⟨by decide, by decide, by decide, fun i _ h => (by decide +kernel : ∀ i, i < 8 → ¬ IsWild (numberMask.getD i 0)) i h⟩, by decide, rfl⟩) (by decide +kernel)
    (.here (.inl ⟨9, 53, ⟨by decide, by decide, by decide, fun i _ h => (by decide +kernel : ∀ i, i < 9 → ¬ IsWild ((numberMask.set 8 49).getD i 0)) i h⟩, by decide, rfl⟩)), by decide +kernel⟩

theorem oneNumber_readable : ∀ d ∈ oneNumber, d.Readable := by
  intro d hd
  rcases List.mem_cons.mp hd with rfl | hd
  · exact ⟨by decide, by decide, by decide, [], .nil⟩
  rcases List.mem_cons.mp hd with rfl | hd
  · exact ⟨by decide, by decide, by decide, [], .nil⟩
  rcases List.mem_cons.mp hd with rfl | hd
  · exact ⟨by decide, by decide, by decide, [], .nil⟩
  · simp at hd

/-- hypotheses of C74_exact, with a report of the third meter -/
example (k : Kind) : ∃ sent' log es, scanRange ((busLink k (idealBus oneNumber)).ops PURGE_M2S).logged ⟨3, 1, PURGE_M2S⟩ (⟨[], []⟩, []) (0 : Nat) numberMask =
    .ok (0, ⟨[], sent'⟩, log) ∧ Pointwise Reports (foundOf log) es ∧ ⟨0x08, 3, [0x78, 0x56, 0x34, 0x12, 0x15, 0x40, 1, 7, 0, 0, 0, 0]⟩ ∈ es := by
  obtain ⟨sent', log, es, h1, h2, _, h4⟩ := C74_exact k (idealBus oneNumber) (.inr rfl) (fun _ _ => rfl) PURGE_M2S (by decide) ⟨3, 1, PURGE_M2S⟩ (by decide)
    oneNumber (idealBus_faithful _) oneNumber_readable numberMask ⟨rfl, by decide +kernel⟩ (by decide +kernel) 0 (by decide) []
  exact ⟨sent', log, es, h1, h2, (h4 _).mpr oneNumber_third⟩

/-- the complete address of the third -/
def completeMask : List Byte := [49, 50, 51, 52, 53, 54, 55, 56, 49, 53, 52, 48, 48, 49, 48, 55]

/-- hypotheses of C74_full_address -/
example (k : Kind) : ∃ sent' log es, scanRange ((busLink k (idealBus oneNumber)).ops PURGE_M2S).logged ⟨3, 1, PURGE_M2S⟩ (⟨[], []⟩, []) (0 : Nat) completeMask =
    .ok (0, ⟨[], sent'⟩, log) ∧ Pointwise Reports (foundOf log) es ∧ ⟨0x08, 3, [0x78, 0x56, 0x34, 0x12, 0x15, 0x40, 1, 7, 0, 0, 0, 0]⟩ ∈ es := by
  obtain ⟨sent', log, es, h1, h2, _, h4⟩ := C74_full_address k (idealBus oneNumber) (.inr rfl) (fun _ _ => rfl) PURGE_M2S (by decide) ⟨3, 1, PURGE_M2S⟩ (by decide)
    oneNumber (idealBus_faithful _) oneNumber_readable completeMask ⟨rfl, by decide +kernel⟩ (by decide +kernel) 0 (by decide)
    (fun i _ h => (by decide +kernel : ∀ i, i < 16 → ¬ IsWild (completeMask.getD i 0)) i h) []
  exact ⟨sent', log, es, h1, h2, (h4 _).mpr (by decide +kernel)⟩

end Mbus
