import Verif.Props.Address
import Verif.Props.Command
import Verif.Props.ToolScan
import Verif.Props.ToolExact
/- Negations of the properties whose positive theorems are restricted: the restrictions are needed. -/
namespace Mbus
open Spec

/-- C54 fails for identification digits A..E: the selection telegram sent for `0000000A24400107` names the identification number 00000001. -/
theorem C54_select_violation (k : Kind) (env : Env) (ho : IsOpen k env) (purge : Int) (b : Bus) :
    (∀ c ∈ cs! "0000000A24400107", IsHex c) ∧ (cs! "0000000A24400107").length = 16 ∧
    Transmitted env b (.data 0x73 0xFD 0x52 [0x01, 0, 0, 0, 0x24, 0x40, 1, 7]) (sendSelect ((busLink k env).ops purge) b (cs! "0000000A24400107")) ∧
    addressBytes (cs! "0000000A24400107") = [0x0A, 0, 0, 0, 0x24, 0x40, 1, 7] := by
  have hx : ∀ c ∈ cs! "0000000A24400107", IsHex c := by decide +kernel
  refine ⟨hx, rfl, ?_, by decide +kernel⟩
  obtain ⟨d, h1, h2⟩ := selectPack_eq (frameNew TYPE_LONG) (cs! "0000000A24400107") rfl hx
  have hp := packs_long 0x73 0xFD 0x52 d 8 (by omega)
  rw [h2] at hp
  refine bus_finish k env ho b hp ⟨(by decide : (0x73 : Byte) ∈ dataCodes), by decide +kernel⟩ purge ?_
  unfold sendSelect
  rw [h1]
  simp only [ok_bind, show ¬ ((0 : Int) = -1) by decide, if_false]

/-- C76 fails for a telegram of 33 proper records (`edgeTelegram`): what `mbus_frame_xml` returns for it is not a well-formed document, whatever the memory
contained. -/
theorem C76_violation (junk0 : Nat → Byte) (junk : Nat → Nat → Byte) :
    Reads edgeTelegram hdrHeader ((List.replicate 32 flowItem ++ [edgeItem]).map (·.1)) ∧
    ∃ m text, frameXml junk0 junk (edgeTelegram, none) [] = .ok ⟨some m, false, []⟩ ∧ cstr m = .ok text ∧ ¬ WellFormedXml text := by
  refine ⟨edge_reads, ?_⟩
  have hn : ∀ it ∈ List.replicate 32 flowItem ++ [edgeItem], it.2.2 = none := by
    intro it hit
    rcases List.mem_append.mp hit with h | h
    · rw [(List.mem_replicate.mp h).2]; rfl
    · rw [List.mem_singleton.mp h]; rfl
  have hs : ∀ i ∈ [List.replicate 32 flowItem ++ [edgeItem]], ∀ it ∈ i, Spec.Writable it ∧ StampOk it.2.2 := by
    intro i hi
    rw [List.mem_singleton.mp hi]
    exact edge_writable
  obtain ⟨p, hp, hw⟩ := C113_wellFormed junk0 junk (edgeTelegram, none) [] hdrHeader (List.replicate 32 flowItem ++ [edgeItem]) [] edge_reads hn .nil hs (by
    intro i hi it hit s hs
    rw [List.mem_singleton.mp hi] at hit
    rw [hn it hit] at hs
    cases hs) (by simp [total]) (by simp)
  rw [hdr_product] at hp
  injection hp with hp
  subst hp
  obtain ⟨m, doc, h1, _, h3, h4⟩ := C113_cut junk0 junk
  refine ⟨m, _, h1, cstr_mem m ?_, fun hwf => ?_⟩
  · obtain ⟨r, hr⟩ := h4
    rw [← hr]
    simp
  · have := (hw _ m _ h1 rfl (cstr_mem m (by obtain ⟨r, hr⟩ := h4; rw [← hr]; simp))).mp hwf
    rw [edge_fate] at this
    cases this

/-- C58 fails for a telegram of 33 proper records (`overflowTelegram`): instead of a document there is a write outside the buffer. -/
theorem C58_overflow_violation (junk0 : Nat → Byte) (junk : Nat → Nat → Byte) :
    (∃ rs, Reads overflowTelegram hdrHeader rs ∧ rs.length = 33) ∧
    ∃ i, frameXml junk0 junk (overflowTelegram, none) [] = .error (.oobWrite 8192 i) :=
  ⟨⟨_, overflow_reads, by simp⟩, C56_overflow_violation junk0 junk⟩

/-- C94 fails for a mask that fixes the identification number: the one meter on the bus is selected by the mask and is not listed. -/
theorem C94_fixed_id_violation (k : Kind) (env : Env) (purge : Int) (st : Settings) (d : Device) (h : Scannable k env purge st [d])
    (hmfr : (d.address.getD 4 0).toNat % 16 ≠ 15) (before after : List (List Byte)) (hr : ResettableAll env before after) :
    selects (addressBytes ((addressText d.address).take 8 ++ List.replicate 8 70)) d.address = true ∧
    ∃ sent', scanSecondaryTool ((busLink k env).ops purge) st ⟨[], before⟩ ((addressText d.address).take 8 ++ List.replicate 8 70) =
      .ok ⟨0, [], ⟨[], sent'⟩⟩ := by
  obtain ⟨hs, sent', log, h1, h2⟩ := C74_fixed_id_violation k env purge st d h hmfr after
  refine ⟨hs, sent', ?_⟩
  have hrd := h.readable d (by simp)
  have h8 : d.address.length = 8 := by
    have := hrd.2.1
    unfold Device.address
    simp; omega
  have h16 := addressText_length _ h8
  generalize hm : (addressText d.address).take 8 ++ List.replicate 8 (70 : Byte) = m at *
  have hml : m.length = 16 := by rw [← hm]; simp [h16]
  have hmx : ∀ c ∈ m, IsHex c := by
    rw [← hm]
    intro c hc
    rcases List.mem_append.mp hc with hc | hc
    · exact (by decide +kernel : ∀ c ∈ hexUpper, IsHex c) c (addressText_upper _ c (List.mem_of_mem_take hc))
    · rw [(List.mem_replicate.mp hc).2]; decide
  have hq0 : scanRange ((busLink k env).ops purge).logged st (⟨[], after⟩, []) (0 : Nat) m = .ok (0, ⟨[], sent'⟩, log) := h1
  obtain ⟨hlog, hnp⟩ := scan_logOf _ st _ m hml 0 _ log hq0
  have hf : foundOf log = (visits log).flatMap fun v => foundOf v.2 := by rw [← foundOf_logOf, ← hlog]
  have hout : (printed log).2 = [] := by
    have e : (printed log).2 = deviceLines (visits log) := by
      unfold printed
      rw [hlog]
      have := printed_logOf (visits log) hnp ([], [])
      rw [this, List.nil_append, ← hlog]
    rw [e]
    unfold deviceLines
    rw [h2] at hf
    have hz := List.flatMap_eq_nil_iff.mp hf.symm
    refine List.flatMap_eq_nil_iff.mpr fun v hv => ?_
    rw [hz v hv]
    rfl
  unfold scanSecondaryTool
  rw [if_neg (by rw [(isSecondary_iff m).mpr ⟨hml, hmx⟩]; decide), initAll_wire k env h.opened h.writable purge before after hr, ok_bind]
  simp only
  rw [if_neg (by decide)]
  have hsim := scan_sim (printing_simulates ((busLink k env).ops purge)) st (⟨[], after⟩, []) 0 m
  rw [show ((⟨[], after⟩ : Bus), ([] : List Byte), ([] : List Line)) = (⟨[], after⟩, printed []) from rfl, hsim]
  erw [hq0]
  simp only [Except.map, ok_bind, mapS, hout]

/-- a bus that, after two resets, is a meter at address 1 with the telegram of C113_cut; the first request gets lost -/
def edgeMeter : Env :=
  { respond := fun sent => if sent.length ≤ 2 then [] else (meterEnv 1 [edgeWire] fun n => if n = 0 then .requestLost else .delivered).respond (sent.drop 2)
    junk := fun _ => 0
    wret := fun _ n => n
    tty := true }

/-- C92 fails for this meter: the tool prints the first 8191 characters of the document and reports success. -/
theorem C92_cut_violation (k : Kind) (junk0 : Nat → Byte) (junk : Nat → Nat → Byte) : ∃ doc b,
    doc = document (slaveGroup hdrHeader [] (mediumLookup hdrHeader.medium) :: recordGroupsCut none 0 (List.replicate 32 flowItem ++ [edgeItem])) ∧
    8191 < doc.length ∧
    multiTool junk0 junk (fun _ => none) ((busLink k edgeMeter).ops PURGE_M2S) Settings.default ⟨[], []⟩ 16 (cs! "1") =
      .ok ⟨0, [.xml (doc.take 8191)], b⟩ := by
  obtain ⟨name, b, hp, hm⟩ := C92_wire_exact junk0 junk (fun _ => none) (fun _ s h => by cases h) k edgeMeter
    (by cases k <;> simp [IsOpen, edgeMeter]) (fun _ _ => rfl) PURGE_M2S (by decide) [] [pingWire 0xFD, pingWire 0xFD] [pingWire 0xFD, pingWire 0xFD] (cs! "1") 1
    ⟨rfl, ⟨[], by simp [Chunks], by decide⟩, [], by simp [Chunks], by decide⟩
    (.primary 1 (.digit 49 (by decide)) (fun h => absurd h.1 (by decide)) (by decide)) [edgeWire]
    ⟨0x08, 1, _, _, rfl, by decide, by decide +kernel, by decide +kernel, edge_tiles, by simp [EndsWithMore, edgeRec]⟩ (fun n => if n = 0 then .requestLost else .delivered)
    (by
      have hf : (fun s => edgeMeter.respond ([pingWire 0xFD, pingWire 0xFD] ++ s)) = (meterEnv 1 [edgeWire] fun n => if n = 0 then .requestLost else .delivered).respond := by
        funext s
        cases s with
        | nil => rfl
        | cons x s =>
          simp only [edgeMeter]
          rw [if_neg (by simp)]
          rfl
      unfold Env.after
      rw [hf]
      rfl)
    (by intro n b h; split at h <;> cases h) Settings.default 3 rfl
    (by intro n; refine ⟨1, by decide, by simp⟩) 16 (by decide) hdrHeader (by
      intro c a ci p h
      simp only [List.head?_cons, edgeWire, Option.some.injEq, Telegram.data.injEq] at h
      rw [← h.2.2.2]
      unfold HeaderIs
      decide +kernel)
    [List.replicate 32 flowItem ++ [edgeItem]] rfl
    (by
      intro i h1 h2
      have : i = 0 := by simp at h1; omega
      subst this
      refine ⟨0x08, 1, _, _, rfl, edge_tiles, ?_, ?_⟩
      · simp only [List.getElem_cons_zero, List.map_append, List.map_replicate]; rfl
      · intro it hit
        rcases List.mem_append.mp hit with h | h
        · rw [(List.mem_replicate.mp h).2]; rfl
        · rw [List.mem_singleton.mp h]; rfl)
    (by
      intro its hi it hit
      rw [List.mem_singleton.mp hi] at hit
      exact (edge_writable it hit).1) (by simp [total]) (by decide)
  rw [hdr_product] at hp
  injection hp with hp
  subst hp
  have hf := edge_fate
  rw [hf] at hm
  exact ⟨_, b, rfl, hm⟩

end Mbus
