import Verif.Props.Tame
import Verif.Props.MainWire
/-
Property theorems C133 for the programs that print documents: what they write on standard output.
-/
namespace Mbus
open Spec

theorem iso_tame {t : Int} {s : List Byte} (h : IsoText t s) : TameText s := by
  obtain ⟨c, _, _, rfl⟩ := h
  unfold Civil.text dec4
  simp only [tame_append]
  exact ⟨⟨⟨⟨⟨⟨⟨⟨⟨⟨⟨⟨tame_dec2 _, tame_dec2 _⟩, by decide⟩, tame_dec2 _⟩, by decide⟩, tame_dec2 _⟩, by decide⟩, tame_dec2 _⟩, by decide⟩, tame_dec2 _⟩, by decide⟩,
    tame_dec2 _⟩, by decide⟩

theorem hexList_tame (bs : List Byte) : TameText (hexList bs) := by
  unfold hexList
  exact tame_flatMap fun b _ => forall_byte (P := fun b => TameText (hex2 b.toNat ++ [32])) (by decide +kernel) b

theorem telegramDump_tame (t : Spec.Telegram) : TameText (telegramDump t) := by
  have k : ∀ a n bs, TameText (dumpLine a n bs) := fun a n bs => by
    unfold dumpLine
    simp only [tame_append]
    exact ⟨⟨⟨⟨⟨by decide, tame_int _⟩, by decide⟩, tame_int _⟩, by decide⟩, hexList_tame _⟩
  unfold telegramDump telegramLine
  split
  · exact k _ _ _
  · exact k _ _ _

theorem notes_tame (d : Bool) (ts : List Spec.Telegram) : TameText (ifDebug d (unlines (ts.map telegramDump))) ∧ TameText (resetNotes d) := by
  constructor
  · unfold ifDebug
    split
    · exact tame_flatMap fun l hl => by
        obtain ⟨t, _, rfl⟩ := List.mem_map.mp hl
        exact tame_append.mpr ⟨telegramDump_tame t, by decide⟩
    · exact tame_nil
  · revert d; decide

theorem slave_document_tame (h : VarHeader) (name m : List Byte) (gs : List Group) (hg : ∀ g ∈ gs, GroupTame g) : TameText (document (slaveGroup h name m :: gs)) :=
  tame_document _ fun g hm => by
    rcases List.mem_cons.mp hm with rfl | hm
    · exact slaveGroup_tame h name _
    · exact hg g hm

/-- the items of a request: every time stamp is the one of the telegram -/
theorem zip_stamp_tame {α : Type} (xs : List α) (units : List (List Byte)) (stamp : Option (List Byte)) (hst : ∀ s, stamp = some s → ∃ t, IsoText t s) :
    ∀ it ∈ xs.zip (units.map (·, stamp)), ∀ t, it.2.2 = some t → TameText t := by
  intro it hit t ht
  obtain ⟨u, _, hu⟩ := List.mem_map.mp (List.of_mem_zip (a := it.1) (b := it.2) hit).2
  rw [← hu] at ht
  obtain ⟨_, h⟩ := hst t ht
  exact iso_tame h

theorem reads_stamp_tame {ts : List Spec.Telegram} {stamps : Nat → Option (List Byte)} (hst : ∀ i s, stamps i = some s → ∃ t, IsoText t s) {tss : List (List Item)}
    (hl : tss.length = ts.length) (hits : ∀ i (h1 : i < ts.length) (h2 : i < tss.length), TelegramReads ts[i] (stamps i) tss[i]) :
    ∀ its ∈ tss, ∀ it ∈ its, ∀ t, it.2.2 = some t → TameText t := by
  intro its hits' it hit t ht
  obtain ⟨i, hi, rfl⟩ := List.mem_iff_getElem.mp hits'
  obtain ⟨_, _, _, _, _, _, _, h⟩ := hits i (by omega) hi
  rw [h it hit] at ht
  obtain ⟨_, h⟩ := hst i t ht
  exact iso_tame h

/-- C133: whatever the chosen meter answers, `mbus-serial-request-data` prints no control character but line feeds, with and without -d. -/
theorem C133_serial_request (junk0 : Nat → Byte) (junk : Nat → Nat → Byte) (stamp : Option (List Byte)) (hst : ∀ s, stamp = some s → ∃ t, IsoText t s)
    (uninit : Buf 256) (os : Os) (buses : Target → Env) (q : Proc) (ha : AnswerOk q os.answer) (d : Bool) (b : Option Arg) (device addr : Arg)
    (hu : Usable os (.serial device (rate b))) (env : Env) (henv : buses (.serial device (rate b)) = env) (ho : IsOpen .serial env) (hw : Mbus.Writable env)
    (before ready after : List (List Byte)) (dest : Byte) (hi : Resettable env before ready) (hreach : Reachable env addr ready dest after)
    (c a : Byte) (p : List Byte) (hl : Spec.Telegram.Legal (.data c a 0x72 p)) (hdir : c &&& 0x40 = 0) (h12 : 12 ≤ p.length)
    (cs : List (List Byte)) (hcs : Chunks cs) (hw2 : cs.flatten = (Spec.Telegram.data c a 0x72 p).wire)
    (hr : env.respond (after ++ [(Spec.Telegram.short 0x5B dest).wire]) = evs cs)
    (h : VarHeader) (hh : HeaderIs h p) (rs : List Rec) (ht : Tiles (p.drop 12) rs) (units : List (List Byte)) (hl2 : units.length = rs.length)
    (hs : ∀ it ∈ (rs.map mkRec).zip (units.map (·, stamp)), Spec.Writable it)
    (o : Ran Bus) (hrun : serialRequestMain junk0 junk stamp uninit os (wired buses) q ⟨[], before⟩ (flag d ++ opt (cs! "-b") b ++ [device, addr]) = .ok o) :
    TameText o.out := by
  obtain ⟨name, q', _, _, _, hp⟩ := C117_serial_request junk0 junk stamp hst uninit os buses q ha d b device addr hu env henv ho hw before ready after dest hi hreach c a p hl hdir h12 cs hcs hw2 hr h hh rs ht units hl2 hs
  obtain ⟨t, rfl, ht⟩ := PrintedAs.tame hp (slave_document_tame _ _ _ _ (recordGroupsCut_tame _ _ (zip_stamp_tame _ _ _ hst) _)) hrun
  exact tame_append.mpr ⟨tame_append.mpr ⟨(notes_tame d []).2, (notes_tame d [.data c a 0x72 p]).1⟩, ht⟩

/-- C133: whatever the chosen meter answers, `mbus-tcp-request-data` prints no control character but line feeds, with and without -d. -/
theorem C133_tcp_request (junk0 : Nat → Byte) (junk : Nat → Nat → Byte) (stamp : Option (List Byte)) (hst : ∀ s, stamp = some s → ∃ t, IsoText t s)
    (uninit : Buf 256) (os : Os) (buses : Target → Env) (q : Proc) (ha : AnswerOk q os.answer) (d : Bool) (host port addr : Arg)
    (hu : Usable os (.tcp host (atol port))) (env : Env) (henv : buses (.tcp host (atol port)) = env) (ho : IsOpen .tcp env) (hw : Mbus.Writable env)
    (before after : List (List Byte)) (dest : Byte) (hreach : Reachable env addr before dest after)
    (c a : Byte) (p : List Byte) (hl : Spec.Telegram.Legal (.data c a 0x72 p)) (hdir : c &&& 0x40 = 0) (h12 : 12 ≤ p.length)
    (cs : List (List Byte)) (hcs : Chunks cs) (hw2 : cs.flatten = (Spec.Telegram.data c a 0x72 p).wire)
    (hr : env.respond (after ++ [(Spec.Telegram.short 0x5B dest).wire]) = evs cs)
    (h : VarHeader) (hh : HeaderIs h p) (rs : List Rec) (ht : Tiles (p.drop 12) rs) (units : List (List Byte)) (hl2 : units.length = rs.length)
    (hs : ∀ it ∈ (rs.map mkRec).zip (units.map (·, stamp)), Spec.Writable it)
    (o : Ran Bus) (hrun : tcpRequestMain junk0 junk stamp uninit os (wired buses) q ⟨[], before⟩ (flag d ++ [host, port, addr]) = .ok o) :
    TameText o.out := by
  obtain ⟨name, q', _, _, _, hp⟩ := C117_tcp_request junk0 junk stamp hst uninit os buses q ha d host port addr hu env henv ho hw before after dest hreach c a p hl hdir h12 cs hcs hw2 hr h hh rs ht units hl2 hs
  obtain ⟨t, rfl, ht⟩ := PrintedAs.tame hp (slave_document_tame _ _ _ _ (recordGroupsCut_tame _ _ (zip_stamp_tame _ _ _ hst) _)) hrun
  exact tame_append.mpr ⟨(notes_tame d [.data c a 0x72 p]).1, ht⟩

/-- C133: whatever the chosen meter answers, `mbus-serial-request-data-multi-reply` prints no control character but line feeds, with and without -d. -/
theorem C133_serial_multi (junk0 : Nat → Byte) (junk : Nat → Nat → Byte) (stamps : Nat → Option (List Byte)) (hst : ∀ i s, stamps i = some s → ∃ t, IsoText t s)
    (uninit : Buf 256) (os : Os) (buses : Target → Env) (q : Proc) (ha : AnswerOk q os.answer) (opts : List MultiOption) (device addr : Arg) (asked : Asked)
    (hasked : asked = opts.foldl MultiOption.apply { target := device, operands := [addr] })
    (hu : Usable os (.serial device asked.baud)) (env : Env) (henv : buses (.serial device asked.baud) = env) (ho : IsOpen .serial env) (hw : Mbus.Writable env)
    (before ready after : List (List Byte)) (dest : Byte) (hi : Resettable env before ready) (hreach : Reachable env addr ready dest after)
    (ts : List Spec.Telegram) (hts : Readout ts) (fate : Nat → Fate) (hmeter : env.after after = meterEnv dest ts fate)
    (hnoise : ∀ n b, fate n = .noise b → b ≠ 0xE5 ∧ b ≠ 0x10 ∧ b ≠ 0x68)
    (hfair : ∀ n, ∃ j, j ≤ 3 ∧ fate (n + j) = .delivered) (hmf : (ts.length : Int) ≤ asked.frames)
    (h : VarHeader) (hh : ∀ c a ci p, ts.head? = some (.data c a ci p) → HeaderIs h p)
    (tss : List (List Item)) (hl : tss.length = ts.length) (hits : ∀ i (h1 : i < ts.length) (h2 : i < tss.length), TelegramReads ts[i] (stamps i) tss[i])
    (hs : ∀ its ∈ tss, ∀ it ∈ its, Spec.Writable it) (hc : total tss < 2 ^ 31) (hk : ts.length < 2 ^ 31)
    (o : Ran Bus) (hrun : serialMultiMain junk0 junk stamps uninit os (wired buses) q ⟨[], before⟩ (opts.flatMap MultiOption.words ++ [device, addr]) = .ok o) :
    TameText o.out := by
  obtain ⟨name, bus, q', _, _, _, hp⟩ := C117_serial_multi junk0 junk stamps hst uninit os buses q ha opts device addr asked hasked hu env henv ho hw before ready after dest hi hreach ts hts fate hmeter hnoise hfair hmf h hh tss hl hits hs hc hk
  obtain ⟨t, rfl, ht⟩ := PrintedAs.tame hp (slave_document_tame _ _ _ _ (readoutGroupsCut_tame _ (reads_stamp_tame hst hl hits))) hrun
  exact tame_append.mpr ⟨tame_append.mpr ⟨(notes_tame asked.debug []).2, (notes_tame asked.debug ts).1⟩, ht⟩

/-- C133: whatever the chosen meter answers, `mbus-tcp-request-data-multi-reply` prints no control character but line feeds, with and without -d. -/
theorem C133_tcp_multi (junk0 : Nat → Byte) (junk : Nat → Nat → Byte) (stamps : Nat → Option (List Byte)) (hst : ∀ i s, stamps i = some s → ∃ t, IsoText t s)
    (uninit : Buf 256) (os : Os) (buses : Target → Env) (q : Proc) (ha : AnswerOk q os.answer) (opts : List MultiOption) (hnb : ∀ v, MultiOption.baud v ∉ opts)
    (host port addr : Arg) (asked : Asked) (hasked : asked = opts.foldl MultiOption.apply { target := host, port := atol port, operands := [addr] })
    (hu : Usable os (.tcp host (atol port))) (env : Env) (henv : buses (.tcp host (atol port)) = env) (ho : IsOpen .tcp env) (hw : Mbus.Writable env)
    (before ready after : List (List Byte)) (dest : Byte) (hi : Resettable env before ready) (hreach : Reachable env addr ready dest after)
    (ts : List Spec.Telegram) (hts : Readout ts) (fate : Nat → Fate) (hmeter : env.after after = meterEnv dest ts fate)
    (hnoise : ∀ n b, fate n = .noise b → b ≠ 0xE5 ∧ b ≠ 0x10 ∧ b ≠ 0x68)
    (hfair : ∀ n, ∃ j, j ≤ 3 ∧ fate (n + j) = .delivered) (hmf : (ts.length : Int) ≤ asked.frames)
    (h : VarHeader) (hh : ∀ c a ci p, ts.head? = some (.data c a ci p) → HeaderIs h p)
    (tss : List (List Item)) (hl : tss.length = ts.length) (hits : ∀ i (h1 : i < ts.length) (h2 : i < tss.length), TelegramReads ts[i] (stamps i) tss[i])
    (hs : ∀ its ∈ tss, ∀ it ∈ its, Spec.Writable it) (hc : total tss < 2 ^ 31) (hk : ts.length < 2 ^ 31)
    (o : Ran Bus) (hrun : tcpMultiMain junk0 junk stamps uninit os (wired buses) q ⟨[], before⟩ (opts.flatMap MultiOption.words ++ [host, port, addr]) = .ok o) :
    TameText o.out := by
  obtain ⟨name, bus, q', _, _, _, hp⟩ := C117_tcp_multi junk0 junk stamps hst uninit os buses q ha opts hnb host port addr asked hasked hu env henv ho hw before ready after dest hi hreach ts hts fate hmeter hnoise hfair hmf h hh tss hl hits hs hc hk
  obtain ⟨t, rfl, ht⟩ := PrintedAs.tame hp (slave_document_tame _ _ _ _ (readoutGroupsCut_tame _ (reads_stamp_tame hst hl hits))) hrun
  exact tame_append.mpr ⟨tame_append.mpr ⟨(notes_tame asked.debug []).2, (notes_tame asked.debug ts).1⟩, ht⟩

/-! direct instances -/
/-- `mbus-serial-request-data -d /dev/ttyUSB0 1` -/
example (junk0 : Nat → Byte) (junk : Nat → Nat → Byte) (uninit : Buf 256) := C133_serial_request junk0 junk volumeItem.2.2 volume_stamp uninit kindOs
  (fun _ => volumeBus) sampleProc kind_answer true none (cs! "/dev/ttyUSB0") (cs! "1") (kind_serial _ _ (by decide)) volumeBus rfl
  (by simp [IsOpen, volumeBus]) (fun _ _ => rfl) [] [pingWire 0xFD, pingWire 0xFD] [pingWire 0xFD, pingWire 0xFD] 1
  ⟨rfl, ⟨[], by simp [Chunks], by decide⟩, [[0xE5]], by simp [Chunks], by decide⟩ (volume_primary _ _) 0x08 1 (hdr ++ [0x01, 0x13, 5]) ⟨by decide, by decide⟩
  (by decide) (by decide)
  [volumeWire.wire.take 1, (volumeWire.wire.drop 1).take 7, volumeWire.wire.drop 8] (by unfold Chunks; decide +kernel) (by decide +kernel) (by decide +kernel)
  hdrHeader (by unfold HeaderIs; decide) [.value 0x01 [] 0x13 [] [] [5]] volume_tiles [cs! "Volume (m m^3)"] rfl
  (by intro it hit; have : it = volumeItem := List.mem_singleton.mp hit; rw [this]; exact volume_writable)

/-- `mbus-tcp-request-data gateway 10001 1` -/
example (junk0 : Nat → Byte) (junk : Nat → Nat → Byte) (uninit : Buf 256) := C133_tcp_request junk0 junk volumeItem.2.2 volume_stamp uninit kindOs
  (fun _ => volumeBus) sampleProc kind_answer false (cs! "gateway") (cs! "10001") (cs! "1") (kind_tcp _ _ (by decide +kernel)) volumeBus rfl
  (by simp [IsOpen, volumeBus]) (fun _ _ => rfl) [pingWire 0xFD, pingWire 0xFD] [pingWire 0xFD, pingWire 0xFD] 1
  (volume_primary _ _) 0x08 1 (hdr ++ [0x01, 0x13, 5]) ⟨by decide, by decide⟩
  (by decide) (by decide)
  [volumeWire.wire.take 1, (volumeWire.wire.drop 1).take 7, volumeWire.wire.drop 8] (by unfold Chunks; decide +kernel) (by decide +kernel) (by decide +kernel)
  hdrHeader (by unfold HeaderIs; decide) [.value 0x01 [] 0x13 [] [] [5]] volume_tiles [cs! "Volume (m m^3)"] rfl
  (by intro it hit; have : it = volumeItem := List.mem_singleton.mp hit; rw [this]; exact volume_writable)

/-- `mbus-serial-request-data-multi-reply -d -f 3 /dev/ttyUSB0 1` -/
example (junk0 : Nat → Byte) (junk : Nat → Nat → Byte) (uninit : Buf 256) := C133_serial_multi junk0 junk (fun _ => volumeItem.2.2) (fun _ => volume_stamp) uninit kindOs
  (fun _ => lossyBus) sampleProc kind_answer [.debug, .frames (cs! "3")] (cs! "/dev/ttyUSB0") (cs! "1") _ rfl (kind_serial _ _ (by decide +kernel)) lossyBus rfl
  (by simp [IsOpen, lossyBus]) (fun _ _ => rfl) [] [pingWire 0xFD, pingWire 0xFD] [pingWire 0xFD, pingWire 0xFD] 1
  ⟨rfl, ⟨[], by simp [Chunks], by decide⟩, [], by simp [Chunks], by decide⟩ (volume_primary _ _) [volumeWire] volume_readout _ lossyBus_after
  (by intro n b h; split at h <;> cases h) (by intro n; refine ⟨1, by decide, by simp⟩) (by decide +kernel) hdrHeader (by intro c a ci p h; cases h; rfl) [[volumeItem]] rfl
  volume_telegram_reads (by
    intro its h it hit
    rw [List.mem_singleton.mp h] at hit
    rw [List.mem_singleton.mp hit]
    exact volume_writable) (by decide) (by decide)

/-- `mbus-tcp-request-data-multi-reply gateway 10001 1` -/
example (junk0 : Nat → Byte) (junk : Nat → Nat → Byte) (uninit : Buf 256) := C133_tcp_multi junk0 junk (fun _ => volumeItem.2.2) (fun _ => volume_stamp) uninit kindOs
  (fun _ => lossyBus) sampleProc kind_answer [] (by simp) (cs! "gateway") (cs! "10001") (cs! "1") _ rfl (kind_tcp _ _ (by decide +kernel)) lossyBus rfl
  (by simp [IsOpen, lossyBus]) (fun _ _ => rfl) [] [pingWire 0xFD, pingWire 0xFD] [pingWire 0xFD, pingWire 0xFD] 1
  ⟨rfl, ⟨[], by simp [Chunks], by decide⟩, [], by simp [Chunks], by decide⟩ (volume_primary _ _) [volumeWire] volume_readout _ lossyBus_after
  (by intro n b h; split at h <;> cases h) (by intro n; refine ⟨1, by decide, by simp⟩) (by decide +kernel) hdrHeader (by intro c a ci p h; cases h; rfl) [[volumeItem]] rfl
  volume_telegram_reads (by
    intro its h it hit
    rw [List.mem_singleton.mp h] at hit
    rw [List.mem_singleton.mp hit]
    exact volume_writable) (by decide) (by decide)

end Mbus
