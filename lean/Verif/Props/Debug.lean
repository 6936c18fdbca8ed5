import Verif.Lemmas.Debug
import Verif.Lemmas.Framed
import Verif.Lemmas.Main
import Verif.Props.Print
import Verif.Props.Tools
import Verif.Props.ToolExact
/-
C118: option -d of the tools on a connected handle: it adds lines to the output and changes nothing else; the lines that are added.
(The programs with their command lines: C116, C117.)
-/
namespace Mbus
open Spec

/-- C118: `mbus-serial-scan`, `mbus-tcp-scan` on any bus -/
theorem C118_scan_same {σ : Type} (d : Bool) (o : Ops σ) (st : Settings) (s : σ) (retries : Int) :
    Alike (Verbose d) (scanTool o st s retries) (scanToolD d o st s retries) := scanD_alike d o st s retries

/-- C118: `mbus-serial-request-data`, `mbus-tcp-request-data` -/
theorem C118_request_same {σ : Type} (d init : Bool) (junk0 : Nat → Byte) (junk : Nat → Nat → Byte) (stamp : Option (List Byte)) (o : Ops σ) (s : σ)
    (addr : List Byte) : Alike (Verbose d) (requestTool init junk0 junk stamp o s addr) (requestToolD d init junk0 junk stamp o s addr) :=
  requestD_alike d init junk0 junk stamp o s addr

/-- C118: the multi-reply tools -/
theorem C118_multi_same {σ : Type} (d : Bool) (junk0 : Nat → Byte) (junk : Nat → Nat → Byte) (stamps : Nat → Option (List Byte)) (o : Ops σ) (st : Settings)
    (s : σ) (mf : Int) (addr : List Byte) :
    Alike (Verbose d) (multiTool junk0 junk stamps o st s mf addr) (multiToolD d junk0 junk stamps o st s mf addr) :=
  multiD_alike d junk0 junk stamps o st s mf addr

theorem Spec.Alike.weaken {α β : Type} {R S : α → β → Prop} {x : C α} {y : C β} (h : Alike R x y) (hi : ∀ a b, R a b → S a b) : Alike S x y := by
  cases x <;> cases y
  · exact h
  · exact h.elim
  · exact h.elim
  · exact hi _ _ h

/-- C118: `mbus-serial-set-address` -/
theorem C118_set_address_same {σ : Type} (d : Bool) (junk : Frame) (o : Ops σ) (s : σ) (old new : List Byte) :
    Alike (Verbose d) (setAddressTool junk o s old new) (setAddressToolD d junk o s old new) :=
  (setAddressD_alike d junk o s old new).weaken fun _ _ h => h.1

/-- C118: `mbus-serial-scan-secondary` -/
theorem C118_scan_secondary_same {σ : Type} (d : Bool) (o : Ops σ) (st : Settings) (s : σ) (mask : List Byte) :
    Alike (Verbose d) (scanSecondaryTool o st s mask) (scanSecondaryToolD d o st s mask) :=
  (scanSecondaryD_alike d o st s mask).weaken fun _ _ h => h.1

theorem Spec.Alike.ok_of {α β : Type} {R : α → β → Prop} {x : C α} {y : C β} (h : Alike R x y) {a : α} (hx : x = .ok a) : ∃ b, y = .ok b ∧ R a b := by
  subst hx
  cases y with
  | error e => exact h.elim
  | ok b => exact ⟨b, rfl, h⟩

theorem Spec.Alike.success {σ : Type} {d : Bool} {pre out : List Line} {s : σ} {x y : C (Exit σ)}
    (h : Alike (fun e e' => Verbose d e e' ∧ (e.code = 0 → e'.out = pre ++ e.out)) x y) (hx : x = .ok ⟨0, out, s⟩) : y = .ok ⟨0, pre ++ out, s⟩ := by
  obtain ⟨⟨c, o, t⟩, rfl, ⟨h1, h2, _⟩, h3⟩ := h.ok_of hx
  have h4 : o = pre ++ out := h3 rfl
  have h1 : c = 0 := h1
  have h2 : t = s := h2
  subst h1 h2 h4
  rfl

/-! ### the texts -/

theorem noteIf_text (uninit : Buf 256) (searched : Arg) (d : Bool) (t : List Byte) : stdoutText uninit searched (noteIf d t) = .ok (ifDebug d t) := by
  cases d
  · rfl
  · exact stdoutText_single _ _ _ _ rfl

theorem initNotes_text (uninit : Buf 256) (searched : Arg) (d : Bool) : stdoutText uninit searched (initNotes d) = .ok (resetNotes d) := by
  unfold initNotes
  rw [stdoutText_append _ _ _ _ _ _ (noteIf_text _ _ d _) (noteIf_text _ _ d _)]
  cases d <;> rfl

theorem pingNotes_text (uninit : Buf 256) (searched : Arg) (d : Bool) (a m : Nat) :
    stdoutText uninit searched (pingNotes d a m) = .ok (ifDebug d (List.replicate m (decDigits a ++ cs! " ")).flatten) := by
  unfold pingNotes
  induction m with
  | zero => cases d <;> rfl
  | succ m ih =>
    rw [List.replicate_succ, List.flatten_cons, stdoutText_append _ _ _ _ _ _ (noteIf_text _ _ d _) ih, fmtInt_nat]
    cases d <;> rfl

theorem framed_carries (f : Frame) (t : Spec.Telegram) (h : Carries f t) (g : Framed f) : StartStop f t := by
  cases t with
  | ack => exact g.1 h
  | short c a => exact g.2.1 h.1
  | data c a ci p =>
    refine g.2.2 ?_
    have := h.1
    split at this
    · exact .inl this
    · exact .inr this

/-- the dump of a list of telegrams of any length -/
theorem framePrint_dump (uninit : Buf 256) (fs : List Frame) (ts : List Spec.Telegram) (hne : fs ≠ [])
    (h : Pointwise (fun f t => t.Legal ∧ Carries f t ∧ StartStop f t) fs ts) :
    ∃ fs', framePrint uninit fs = .ok (0, unlines (ts.map telegramDump), fs') := by
  have key : ∀ (fs : List Frame) (ts : List Spec.Telegram) (buf : List Byte), buf.length = 256 →
      Pointwise (fun f t => t.Legal ∧ Carries f t ∧ StartStop f t) fs ts →
      ∃ fs', framePrintLoop buf fs = .ok (0, unlines (ts.map telegramDump), fs') := by
    intro fs ts buf hb h
    induction h generalizing buf with
    | nil => exact ⟨[], rfl⟩
    | @cons f t fs ts h1 h2 ih =>
      obtain ⟨hl, hc, hs⟩ := h1
      obtain ⟨a, b, c, d⟩ := packBytes_wire f t hl hc (hs_of f t hc hs)
      have ht : ((fixed f).type : Int) = t.kind := kind_type _ _ (carries_fixed f t hc)
      by_cases hlen : t.wire.length ≤ 256
      · obtain ⟨fs', e1⟩ := ih (t.wire ++ buf.drop t.wire.length) (by simp; omega)
        refine ⟨fixed f :: fs', ?_⟩
        unfold framePrintLoop
        rw [framePack_eq f buf 256 (by omega) c d, if_neg (by omega), a, b, ok_bind]
        have hpos : 0 < t.wire.length := by cases t <;> simp [Spec.Telegram.wire]
        simp only
        rw [if_neg (by omega), hexBytes_eq _ _ (by simp), ok_bind, e1, ok_bind]
        simp [unlines, telegramDump, hlen, telegramLine, dumpLine, ht]
      · obtain ⟨fs', e1⟩ := ih buf hb
        refine ⟨fixed f :: fs', ?_⟩
        unfold framePrintLoop
        rw [framePack_eq f _ 256 (by omega) c d, if_pos (by omega), ok_bind]
        simp only
        rw [if_neg (by decide), hexBytes_eq _ _ (by simp), ok_bind, e1, ok_bind]
        simp [unlines, telegramDump, hlen, dumpLine, ht]
  obtain ⟨fs', h'⟩ := key fs ts uninit.bytes (by simp) h
  refine ⟨fs', ?_⟩
  cases fs with
  | nil => exact absurd rfl hne
  | cons f fs => exact h'

theorem chainIf_text (uninit : Buf 256) (searched : Arg) (d : Bool) (fs : List Frame) (ts : List Spec.Telegram) (hne : fs ≠ [])
    (h : Pointwise (fun f t => t.Legal ∧ Carries f t ∧ StartStop f t) fs ts) :
    stdoutText uninit searched (chainIf d fs) = .ok (ifDebug d (unlines (ts.map telegramDump))) := by
  cases d with
  | false => rfl
  | true =>
    refine stdoutText_single _ _ _ _ ?_
    obtain ⟨fs', e⟩ := framePrint_dump uninit fs ts hne h
    rw [lineText, e]
    rfl

/-! ### the tools on the wire -/

/-- C118: the scan on a bus with meters at the addresses `addrs` -/
theorem C118_scan_wire (d : Bool) (k : Kind) (env : Env) (ho : IsOpen k env) (hw : Mbus.Writable env) (purge : Int) (hp : purge ≠ PURGE_S2M) (st : Settings)
    (addrs : List Byte) (hf : FaithfulPing addrs env) (tries : Int) (ht : 0 ≤ tries ∧ tries ≤ 9) (sent : List (List Byte)) (uninit : Buf 256) (searched : Arg) :
    ∃ out, scanToolD d ((busLink k env).ops purge) st ⟨[], sent⟩ tries = .ok ⟨0, out, ⟨[], sent ++ (List.range 251).flatMap fun a =>
        List.replicate (if UInt8.ofNat a ∈ addrs then 1 else (tries + 1).toNat) (pingWire (UInt8.ofNat a))⟩⟩ ∧
      stdoutText uninit searched out = .ok (ifDebug d (cs! "Scanning primary addresses:\n") ++
        (List.range 251).flatMap fun a => scanNotes d (tries + 1).toNat addrs a ++ scanReport addrs a) := by
  have hs : setOption st 1 tries = (0, { st with maxSearchRetry := tries }) := by
    unfold setOption
    rw [if_neg (by decide), if_pos rfl, if_pos ht]
  refine ⟨_, by
    unfold scanToolD
    rw [hs]
    dsimp only
    rw [if_neg (by decide), scanFromD_wire d k env ho hw purge hp { st with maxSearchRetry := tries } ht.1 addrs hf (MAX_PRIMARY_SLAVES + 1) 0 sent (by decide),
      ok_bind, show List.range 251 = List.range' 0 (MAX_PRIMARY_SLAVES + 1) from List.range_eq_range'], ?_⟩
  refine stdoutText_append _ _ _ _ _ _ (noteIf_text _ _ d _) ?_
  rw [show List.range 251 = List.range' 0 (MAX_PRIMARY_SLAVES + 1) from List.range_eq_range']
  apply stdoutText_flatMap
  intro a
  refine stdoutText_append _ _ _ _ _ _ (pingNotes_text _ _ d a _) ?_
  unfold scanLine scanReport
  generalize (addrs.filter (·.toNat = a)).length = n
  rcases n with _ | _ | n
  · rfl
  · exact stdoutText_single _ _ _ _ rfl
  · exact stdoutText_single _ _ _ _ rfl

theorem initD_wire (d : Bool) (k : Kind) (env : Env) (ho : IsOpen k env) (hw : Mbus.Writable env) (purge : Int) (before ready : List (List Byte))
    (hr : Resettable env before ready) :
    initSlavesD d ((busLink k env).ops purge) ⟨[], before⟩ 0xFD = .ok (initNotes d, true, ⟨[], ready⟩) := by
  obtain ⟨⟨n, q⟩, h1, h2, _, h3⟩ := (initD_alike d ((busLink k env).ops purge) ⟨[], before⟩ 0xFD).ok_of (init_wire k env ho hw purge before ready hr)
  have h2 : q = (true, ⟨[], ready⟩) := h2
  have h3 : n = initNotes d := h3 rfl
  rw [h1, h2, h3]

/-- C118: `mbus-serial-request-data` (`init`) and `mbus-tcp-request-data` on the wire, as C91_wire_exact: before the document the
notes about the reset and the dump of the telegram -/
theorem C118_request_wire (d init : Bool) (junk0 : Nat → Byte) (junk : Nat → Nat → Byte) (stamp : Option (List Byte)) (hst : ∀ s, stamp = some s → ∃ t, IsoText t s)
    (k : Kind) (env : Env) (ho : IsOpen k env) (hw : Mbus.Writable env) (purge : Int) (hp : purge ≠ PURGE_S2M)
    (before ready after : List (List Byte)) (addr : List Byte) (dest : Byte)
    (hi : if init then Resettable env before ready else ready = before) (hreach : Reachable env addr ready dest after)
    (c a : Byte) (p : List Byte) (hl : Spec.Telegram.Legal (.data c a 0x72 p)) (hdir : c &&& 0x40 = 0) (h12 : 12 ≤ p.length)
    (cs : List (List Byte)) (hcs : Chunks cs) (hw2 : cs.flatten = (Spec.Telegram.data c a 0x72 p).wire)
    (hr : env.respond (after ++ [(Spec.Telegram.short 0x5B dest).wire]) = evs cs)
    (h : VarHeader) (hh : HeaderIs h p) (rs : List Rec) (ht : Tiles (p.drop 12) rs) (units : List (List Byte)) (hu : units.length = rs.length)
    (hs : ∀ it ∈ (rs.map mkRec).zip (units.map (·, stamp)), Spec.Writable it) (uninit : Buf 256) (searched : Arg) :
    ∃ name pre, productName h = .ok name ∧
      stdoutText uninit searched pre = .ok ((if init then resetNotes d else []) ++ ifDebug d (unlines [telegramDump (.data c a 0x72 p)])) ∧
      PrintedAs (requestToolD d init junk0 junk stamp ((busLink k env).ops purge) ⟨[], before⟩ addr)
        (fun text => ⟨0, pre ++ [.xml text], ⟨[], after ++ [(Spec.Telegram.short 0x5B dest).wire]⟩⟩)
        (document (slaveGroup h name (mediumLookup h.medium) :: recordGroupsCut none 0 ((rs.map mkRec).zip (units.map (·, stamp)))))
        (xmlFate (startLength (slaveGroup h name (mediumLookup h.medium))) (whole (recordGroupsCut none 0 ((rs.map mkRec).zip (units.map (·, stamp)))))) := by
  obtain ⟨g, hrecv, hg⟩ := recv_telegram k env ho purge hp (after ++ [(Spec.Telegram.short 0x5B dest).wire]) cs hcs _ hl hdir hw2 Frame.zero
  have hframed : Framed g := recvFrame_accepts parse_framed k env purge _ _ _ _ hrecv
  obtain ⟨name, x, h1, hx, h0, hm⟩ := frameDataXml_exact junk0 junk stamp hst g c a p hg hdir h12 hl.2 h hh rs ht units hu hs
  refine ⟨name, (if init then initNotes d else []) ++ chainIf d [g], h1, ?_, ?_⟩
  · refine stdoutText_append _ _ _ _ _ _ ?_ (chainIf_text _ _ d [g] [.data c a 0x72 p] (by simp) (.cons ⟨hl, hg, framed_carries _ _ hg hframed⟩ .nil))
    cases init with
    | false => rfl
    | true => exact initNotes_text _ _ _
  unfold requestToolD
  have hinit : maybeInitD d init ((busLink k env).ops purge) ⟨[], before⟩ = .ok (if init then initNotes d else [], true, ⟨[], ready⟩) := by
    cases init with
    | false => simp only [Bool.false_eq_true, if_false] at hi; rw [hi]; rfl
    | true => exact initD_wire d k env ho hw purge before ready hi
  rw [hinit, ok_bind]
  simp only
  rw [if_neg (by decide), reach_wire k env ho hw purge hp addr ready dest after hreach, ok_bind]
  simp only
  unfold requestFromD
  rw [bus_sendRequest k env ho hw purge after dest.toNat (by have := dest.toNat_lt; omega), ok_bind]
  simp only [Int.toNat_natCast, UInt8.ofNat_toNat]
  rw [if_neg (by decide), hr]
  show PrintedAs ((recvFrame (busLink k env) purge ⟨evs cs, _⟩ Frame.zero >>= _) >>= _) _ _ _
  rw [hrecv, ok_bind]
  simp only
  rw [if_neg (fun h => h rfl), hx, ok_bind]
  simp only
  rw [if_neg (by decide)]
  rw [bind_assoc]
  refine printed_of_meets hm h0 _ _ ?_
  intro m t e
  dsimp only
  rw [e, ok_bind, ok_bind, List.append_assoc]

/-- C118: the multi-reply tools on the wire, as C92_wire_exact: before the document the notes about the reset and the dump of all telegrams -/
theorem C118_multi_wire (d : Bool) (junk0 : Nat → Byte) (junk : Nat → Nat → Byte) (stamps : Nat → Option (List Byte)) (hst : ∀ i s, stamps i = some s → ∃ t, IsoText t s)
    (k : Kind) (env : Env) (ho : IsOpen k env) (hw : Mbus.Writable env) (purge : Int) (hp : purge ≠ PURGE_S2M)
    (before ready after : List (List Byte)) (addr : List Byte) (dest : Byte) (hi : Resettable env before ready) (hreach : Reachable env addr ready dest after)
    (ts : List Spec.Telegram) (hts : Readout ts) (fate : Nat → Fate) (henv : env.after after = meterEnv dest ts fate)
    (hnoise : ∀ n b, fate n = .noise b → b ≠ 0xE5 ∧ b ≠ 0x10 ∧ b ≠ 0x68) (st : Settings) (max : Nat) (hmax : st.maxDataRetry = max)
    (hfair : ∀ n, ∃ j, j ≤ max ∧ fate (n + j) = .delivered) (mf : Int) (hmf : (ts.length : Int) ≤ mf)
    (h : VarHeader) (hh : ∀ c a ci p, ts.head? = some (.data c a ci p) → HeaderIs h p)
    (tss : List (List Item)) (hl : tss.length = ts.length) (hits : ∀ i (h1 : i < ts.length) (h2 : i < tss.length), TelegramReads ts[i] (stamps i) tss[i])
    (hs : ∀ its ∈ tss, ∀ it ∈ its, Spec.Writable it) (hc : total tss < 2 ^ 31) (hk : ts.length < 2 ^ 31) (uninit : Buf 256) (searched : Arg) :
    ∃ name b pre, productName h = .ok name ∧
      stdoutText uninit searched pre = .ok (resetNotes d ++ ifDebug d (unlines (ts.map telegramDump))) ∧
      PrintedAs (multiToolD d junk0 junk stamps ((busLink k env).ops purge) st ⟨[], before⟩ mf addr) (fun text => ⟨0, pre ++ [.xml text], b⟩)
        (document (slaveGroup h name (mediumLookup h.medium) :: readoutGroupsCut tss))
        (xmlFate (startLength (slaveGroup h name (mediumLookup h.medium))) (whole (readoutGroupsCut tss))) := by
  obtain ⟨out, h1, h2, h3, _⟩ := C73_lossy_readout k dest ts hts fate hnoise purge hp st max hmax hfair mf hmf Frame.zero
  have hframed := sendrecv_chain (P := Framed) _ (fun s f g s' e => recvFrame_accepts parse_framed k _ purge _ _ _ _ e) _ _ _ _ _ _ h1 h2
  have htext : stdoutText uninit searched (initNotes d ++ chainIf d out.chain) = .ok (resetNotes d ++ ifDebug d (unlines (ts.map telegramDump))) := by
    refine stdoutText_append _ _ _ _ _ _ (initNotes_text _ _ d) (chainIf_text _ _ d _ ts ?_ ?_)
    · intro e
      rw [e] at h3
      cases h3
      exact hts.elim
    · have hlegal : ∀ t ∈ ts, t.Legal := fun t ht => by
        obtain ⟨more, hrt⟩ := Readout.basics hts t ht
        obtain ⟨c, a, p, rs, rfl, hcc, _, h252, _⟩ := hrt
        refine ⟨?_, h252⟩
        simp only [List.mem_cons, List.not_mem_nil, or_false] at hcc
        rcases hcc with rfl | rfl | rfl | rfl <;> decide
      clear h1 h2 hfair hnoise henv hts hmf hh hl hits hk
      generalize out.chain = fs at h3 hframed
      induction h3 with
      | nil => exact .nil
      | @cons f t fs ts hft _ ih =>
        refine .cons ⟨hlegal t (by simp), hft, framed_carries _ _ hft (hframed f (by simp))⟩ ?_
        exact ih (fun t ht => hlegal t (List.mem_cons_of_mem _ ht)) (fun g hg => hframed g (List.mem_cons_of_mem _ hg))
  have hsim := sendrecv_sim _ _ _ (bus_simulates k env after purge) st ⟨[], []⟩ dest.toNat Frame.zero mf
  rw [henv, h1] at hsim
  unfold multiToolD
  rw [initD_wire d k env ho hw purge before ready hi, ok_bind]
  simp only
  rw [if_neg (by decide), reach_wire k env ho hw purge hp addr ready dest after hreach, ok_bind]
  simp only
  simp only [Bus.earlier, List.append_nil, Except.map] at hsim
  rw [hsim, ok_bind]
  simp only [mapOut]
  simp only [h2, ne_eq, not_true_eq_false, if_false]
  have hpw := items_pointwise stamps ts out.chain tss 0 (Readout.basics hts) h3 hl (by intro i a b; rw [Nat.zero_add]; exact hits i a b)
  cases ts with
  | nil => exact hts.elim
  | cons t ts =>
    cases tss with
    | nil => cases hl
    | cons its tss =>
      cases hch : out.chain with
      | nil => rw [hch] at h3; cases h3
      | cons g gs =>
        rw [hch] at h3 hpw htext
        cases h3 with
        | cons hgt hgs =>
          rw [List.zipIdx_cons, List.map_cons] at hpw ⊢
          cases hpw with
          | cons hp1 hp2 =>
            have h0 := hits 0 (by simp) (by simp)
            obtain ⟨more, hrt⟩ := Readout.basics hts t (by simp)
            have hread := items_reads hrt hgt h0 h (fun c a ci p e => hh c a ci p (by rw [← e]; rfl))
            have hstamp : ∀ x ∈ its :: tss, ∀ it ∈ x, StampOk it.2.2 ∧ ∀ s, it.2.2 = some s → CharData s := by
              intro x hx
              obtain ⟨i, hi, rfl⟩ := List.mem_iff_getElem.mp hx
              obtain ⟨_, _, _, _, _, _, _, hs⟩ := hits i (by rw [← hl]; exact hi) hi
              exact iso_items (fun it hit s e => hst i s (by rw [← hs it hit]; exact e))
            obtain ⟨name, e1, e2⟩ := C113_frame junk0 junk (g, stamps 0) _ h its tss hread hp1.2 hp2
              (fun x hx it hit => ⟨hs x hx it hit, (hstamp x hx it hit).1⟩) hc (by rw [hl]; exact hk)
            refine ⟨name, Bus.earlier after out.state, initNotes d ++ chainIf d (g :: gs), e1, htext, ?_⟩
            refine printed_of_meets e2 (slave_records_nonul _ _ _ _ (readoutGroupsCut_in _ (fun x hx it hit => (hstamp x hx it hit).2))) _ _ ?_
            intro m t e
            dsimp only
            rw [e]
            rfl

/-- `mbus-tcp-request-data -d` on the bus of C91_cut_violation -/
example (k : Kind) (junk0 : Nat → Byte) (junk : Nat → Nat → Byte) (uninit : Buf 256) : ∃ (doc : List Byte) (pre : List Line), 8191 < doc.length ∧
    stdoutText uninit [] pre = .ok (unlines [telegramDump edgeWire]) ∧
    requestToolD true false junk0 junk none ((busLink k edgeBus).ops PURGE_M2S) ⟨[], []⟩ (cs! "1") =
      .ok ⟨0, pre ++ [.xml (doc.take 8191)], ⟨[], [(Spec.Telegram.short 0x5B 1).wire]⟩⟩ := by
  obtain ⟨name, pre, hp, ht, hm⟩ := C118_request_wire true false junk0 junk none (fun s e => by cases e) k edgeBus (by cases k <;> simp [IsOpen, edgeBus]) (fun _ _ => rfl)
    PURGE_M2S (by decide)
    [] [] [] (cs! "1") 1 rfl (.primary 1 (.digit 49 (by decide)) (fun h => absurd h.1 (by decide)) (by decide)) 0x08 1
    (hdr ++ ((List.replicate 32 [0x00, 0x5A]).flatten ++ edgeRec.encode)) ⟨by decide +kernel, by decide +kernel⟩ (by decide) (by decide +kernel)
    [edgeWire.wire.take 1, (edgeWire.wire.drop 1).take 7, edgeWire.wire.drop 8] (by unfold Chunks; decide +kernel) (by decide +kernel) (by decide +kernel)
    hdrHeader (by unfold HeaderIs; decide +kernel) (List.replicate 32 flowRec ++ [edgeRec]) edge_tiles (List.replicate 32 flowItem.2.1 ++ [edgeItem.2.1]) (by simp)
    (by rw [edge_items]; exact fun it hit => (edge_writable it hit).1) uninit []
  rw [hdr_product] at hp
  injection hp with hp
  subst hp
  rw [edge_items] at hm
  have hf := edge_fate
  rw [show readoutGroupsCut [List.replicate 32 flowItem ++ [edgeItem]] = recordGroupsCut none 0 (List.replicate 32 flowItem ++ [edgeItem]) from rfl] at hf
  rw [hf] at hm
  refine ⟨_, pre, hm.1, ?_, hm.2⟩
  rw [ht, edgeWire, if_neg (by decide), ifDebug, if_pos rfl, List.nil_append]

/-- what is printed about a short answer -/
example : unlines [telegramDump (.short 0x5B 1)] = cs! "mbus_frame_print: Dumping M-Bus frame [type 2, 5 bytes]: 10 5B 01 5C 16 \n" := by decide +kernel

/-- what is printed about the longest answer -/
example : unlines [telegramDump (.data 0x08 1 0x72 (List.replicate 252 0))] = cs! "mbus_frame_print: Dumping M-Bus frame [type 4, -4 bytes]: \n" := by decide +kernel

/-- C118 applied to the scan of the bus with one meter at address 5 and two at address 7 -/
example (uninit : Buf 256) := C118_scan_wire true .serial threeMeters (.inr rfl) (fun _ _ => rfl) PURGE_M2S (by decide) ⟨3, 1, PURGE_M2S⟩ [7, 5, 7] threeMeters_faithful 1 (by decide) [] uninit []

end Mbus
