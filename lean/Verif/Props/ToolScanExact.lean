import Verif.Props.ScanExact
import Verif.Props.ToolScan
/-
C94 for every mask and every set of meters.
-/
namespace Mbus
open Spec

/-- what the tool prints, from what the scan reports -/
theorem tool_of_scan (k : Kind) (env : Env) (ho : IsOpen k env) (hw : Mbus.Writable env) (purge : Int) (st : Settings)
    (m : List Byte) (hm : AddressMask m) (before after : List (List Byte)) (hr : ResettableAll env before after) (sent' : List (List Byte)) (log : List Act)
    (es : List Device) (h1 : scanRange ((busLink k env).ops purge).logged st (⟨[], after⟩, []) (0 : Nat) m = .ok (0, ⟨[], sent'⟩, log))
    (h2 : Pointwise Reports (foundOf log) es) :
    ∃ ls, scanSecondaryTool ((busLink k env).ops purge) st ⟨[], before⟩ m = .ok ⟨0, ls, ⟨[], sent'⟩⟩ ∧
      Pointwise (fun l d => ∃ x, l = .device (addressText d.address) x ∧ Refines 0 m x) ls es := by
  have hq0 : scanRange ((busLink k env).ops purge).logged st (⟨[], after⟩, []) (0 : Nat) m = .ok (0, ⟨[], sent'⟩, log) := h1
  obtain ⟨hlog, hnp⟩ := scan_logOf _ st _ m hm.1 0 _ log hq0
  have hrefines := C49_refines _ st _ 0 m hm.1 (by decide) 0 _ log hq0
  have hout : (printed log).2 = deviceLines (visits log) := by
    unfold printed
    rw [hlog]
    have := printed_logOf (visits log) hnp ([], [])
    rw [this, List.nil_append, ← hlog]
  refine ⟨(printed log).2, ?_, ?_⟩
  · unfold scanSecondaryTool
    rw [if_neg (by rw [(isSecondary_iff m).mpr hm]; decide), initAll_wire k env ho hw purge before after hr, ok_bind]
    simp only
    rw [if_neg (by decide)]
    have hsim := scan_sim (printing_simulates ((busLink k env).ops purge)) st (⟨[], after⟩, []) 0 m
    rw [show ((⟨[], after⟩ : Bus), ([] : List Byte), ([] : List Line)) = (⟨[], after⟩, printed []) from rfl, hsim]
    erw [hq0]
    rfl
  · rw [hout]
    have hf : foundOf log = (visits log).flatMap fun v => foundOf v.2 := by
      rw [← foundOf_logOf, ← hlog]
    rw [hf] at h2
    exact lines_pointwise _ _ h2 (fun v hv x d hx => ⟨v.1, by rw [hx.1], hrefines v hv⟩)

/-- C94, exactly: on a bus whose resets are survived, with any meters, the tool with any mask of hexadecimal digits (those of the
identification number decimal or wildcards) succeeds and prints exactly one line for each meter that is the only one selected by
some mask tried (C74_exact): its address, and a mask that refines the given one. -/
theorem C94_wire_exact (k : Kind) (env : Env) (ho : IsOpen k env) (hw : Mbus.Writable env) (purge : Int) (hk : purge ≠ PURGE_S2M) (st : Settings)
    (hst : 0 ≤ st.maxSearchRetry) (devs : List Device) (hf : Faithful devs env) (hread : ∀ d ∈ devs, d.Readable)
    (m : List Byte) (hm : AddressMask m) (hid : ∀ c ∈ m.take 8, IdDigit c) (before after : List (List Byte)) (hr : ResettableAll env before after) :
    ∃ sent' ls es, scanSecondaryTool ((busLink k env).ops purge) st ⟨[], before⟩ m = .ok ⟨0, ls, ⟨[], sent'⟩⟩ ∧
      es.Nodup ∧ (∀ d, d ∈ es ↔ Isolated devs 0 m d) ∧
      Pointwise (fun l d => ∃ x, l = .device (addressText d.address) x ∧ Refines 0 m x) ls es := by
  obtain ⟨sent', log, es, h1, h2, h3, h4⟩ := C74_exact k env ho hw purge hk st hst devs hf hread m hm hid 0 (by omega) after
  obtain ⟨ls, g1, g2⟩ := tool_of_scan k env ho hw purge st m hm before after hr sent' log es h1 h2
  exact ⟨sent', ls, es, g1, h3, h4, g2⟩

/-- The three meters with one identification number: the tool prints a line for the third. -/
example (k : Kind) : ∃ sent' ls x, scanSecondaryTool ((busLink k (idealBus oneNumber)).ops PURGE_M2S) ⟨3, 1, PURGE_M2S⟩ ⟨[], []⟩ numberMask = .ok ⟨0, ls, ⟨[], sent'⟩⟩ ∧
    Line.device (addressText [0x78, 0x56, 0x34, 0x12, 0x15, 0x40, 1, 7]) x ∈ ls := by
  obtain ⟨sent', ls, es, h1, _, h3, h4⟩ := C94_wire_exact k (idealBus oneNumber) (.inr rfl) (fun _ _ => rfl) PURGE_M2S (by decide) ⟨3, 1, PURGE_M2S⟩ (by decide)
    oneNumber (idealBus_faithful _) oneNumber_readable numberMask ⟨rfl, by decide +kernel⟩ (by decide +kernel) [] [pingWire 0xFD, pingWire 0xFF]
    ⟨rfl, ⟨[[0xFF]], (by unfold Chunks; decide), by decide +kernel⟩, ⟨[[0xFF]], (by unfold Chunks; decide), by decide +kernel⟩⟩
  have key : ∀ {ls es}, Pointwise (fun (l : Line) (d : Device) => ∃ x, l = .device (addressText d.address) x ∧ Refines 0 numberMask x) ls es →
      ∀ d ∈ es, ∃ x, Line.device (addressText d.address) x ∈ ls := by
    intro ls es h
    induction h with
    | nil => intro d hd; simp at hd
    | cons h _ ih =>
      intro d hd
      rcases List.mem_cons.mp hd with rfl | hd
      · obtain ⟨x, rfl, _⟩ := h; exact ⟨x, by simp⟩
      · obtain ⟨x, hx⟩ := ih d hd; exact ⟨x, by simp [hx]⟩
  obtain ⟨x, hx⟩ := key h4 _ ((h3 _).mpr oneNumber_third)
  exact ⟨sent', ls, x, h1, hx⟩

end Mbus
