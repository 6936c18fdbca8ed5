import Verif.Props.Stamp
import Verif.Props.ToolRead
import Verif.Props.ParseTools
/-
C91, C92 and C98 without a limit on the length of texts: the reading tools print the document, its beginning, or fail, as the
lengths of the printed texts say (C113).
-/
namespace Mbus
open Spec

theorem printed_of_meets {α β : Type} {y : C α} {mk : List Byte → α} {doc : List Byte} {fate : XmlFate} (hm : Meets y mk doc fate) (h0 : (0 : Byte) ∉ doc)
    (k : α → C β) (done : List Byte → β) (hk : ∀ m t, cstr m = .ok t → k (mk m) = .ok (done t)) : PrintedAs (y >>= k) done doc fate := by
  cases fate with
  | outside =>
    obtain ⟨n, i, rfl⟩ := hm
    exact ⟨n, i, rfl⟩
  | complete =>
    obtain ⟨m, rfl, h⟩ := hm
    exact hk m doc (by rw [cstr_prefix _ _ h, upToNul_eq _ h0])
  | cut n =>
    obtain ⟨m, rfl, h1, h⟩ := hm
    exact ⟨h1, hk m _ (by rw [cstr_prefix _ _ h, upToNul_eq _ (fun h => h0 (List.mem_of_mem_take h))])⟩

/-- Items whose time stamps are ISO 8601 texts. -/
theorem iso_items {its : List Item} (h : ∀ it ∈ its, ∀ s, it.2.2 = some s → ∃ t, IsoText t s) :
    ∀ it ∈ its, StampOk it.2.2 ∧ ∀ s, it.2.2 = some s → CharData s := by
  intro it hit
  constructor
  · intro s hs
    obtain ⟨t, ht⟩ := h it hit s hs
    exact (IsoText_ok ht).1
  · intro s hs
    obtain ⟨t, ht⟩ := h it hit s hs
    exact (IsoText_ok ht).2

theorem slave_records_nonul (h : VarHeader) (p m : List Byte) (gs : List Group) (hg : ∀ g ∈ gs, GroupIn g) :
    (0 : Byte) ∉ document (slaveGroup h p m :: gs) := by
  apply document_nonul
  intro g hm
  rcases List.mem_cons.mp hm with rfl | hm
  · exact (slaveGroup_in h p m).toGroupOk
  · exact (hg g hm).toGroupOk

/-- `mbus_frame_data_xml` for a telegram read from the wire. -/
theorem frameDataXml_exact (junk0 : Nat → Byte) (junk : Nat → Nat → Byte) (stamp : Option (List Byte)) (hst : ∀ s, stamp = some s → ∃ t, IsoText t s)
    (g : Frame) (c a : Byte) (p : List Byte)
    (hg : Carries g (.data c a 0x72 p)) (hdir : c &&& 0x40 = 0) (h12 : 12 ≤ p.length) (h252 : p.length ≤ 252)
    (h : VarHeader) (hh : HeaderIs h p) (rs : List Rec) (ht : Tiles (p.drop 12) rs) (units : List (List Byte)) (hu : units.length = rs.length)
    (hs : ∀ it ∈ (rs.map mkRec).zip (units.map (·, stamp)), Spec.Writable it) :
    ∃ name x, productName h = .ok name ∧ frameDataParse g FrameData.new = .ok (0, x) ∧
      (0 : Byte) ∉ document (slaveGroup h name (mediumLookup h.medium) :: recordGroupsCut none 0 ((rs.map mkRec).zip (units.map (·, stamp)))) ∧
      Meets (frameDataXml junk0 junk x (x.var.records.map fun _ => stamp)) some
        (document (slaveGroup h name (mediumLookup h.medium) :: recordGroupsCut none 0 ((rs.map mkRec).zip (units.map (·, stamp)))))
        (xmlFate (startLength (slaveGroup h name (mediumLookup h.medium))) (whole (recordGroupsCut none 0 ((rs.map mkRec).zip (units.map (·, stamp)))))) := by
  have hread := reads_carries g c a p hg hdir h12 h252 h hh rs ht
  have hread0 := hread
  obtain ⟨_, x, hx, hty, hhd, hrs⟩ := hread
  generalize hits : (rs.map mkRec).zip (units.map (·, stamp)) = its at hs ⊢
  have hi1 : its.map (·.1) = rs.map mkRec := by rw [← hits, List.map_fst_zip (by simp [hu])]
  have hi2 : ∀ it ∈ its, it.2.2 = stamp := by
    intro it hit
    rw [← hits] at hit
    have := (List.of_mem_zip hit).2
    obtain ⟨u, _, e⟩ := List.mem_map.mp this
    rw [← e]
  have hlen : its.length < 2 ^ 31 := by
    have e1 := congrArg List.length hi1
    simp only [List.length_map] at e1
    have e2 := tiles_count ht
    simp only [List.length_drop] at e2
    omega
  have hiso := iso_items (its := its) (fun it hit s e => hst s (by rw [← hi2 it hit]; exact e))
  obtain ⟨name, h1, h2⟩ := C113_variable junk0 junk h its (fun it hit => ⟨hread0.delivered _ (by rw [← hi1]; exact List.mem_map_of_mem hit), hs it hit,
    (hiso it hit).1⟩) hlen
  refine ⟨name, x, h1, hx, slave_records_nonul _ _ _ _ (recordGroupsCut_in none its (fun it hit => (hiso it hit).2) 0), ?_⟩
  have hxml : frameDataXml junk0 junk x (x.var.records.map fun _ => stamp) =
      (variableXml junk0 junk h (its.map fun it => (it.1, it.2.2)) >>= fun m => .ok (some m)) := by
    unfold frameDataXml
    rw [hty, if_neg (by decide), if_neg (by decide), if_pos rfl, hhd, hrs]
    have hz : (rs.map mkRec).zip ((rs.map mkRec).map fun _ => stamp) = its.map fun it => (it.1, it.2.2) := by
      have hz0 : ∀ l : List Record, l.zip (l.map fun _ => stamp) = l.map (·, stamp) := by
        intro l
        induction l with
        | nil => rfl
        | cons r l ih => simp [ih]
      rw [← hi1, ← items_map its stamp hi2, hz0]
    rw [hz]
  rw [hxml]
  generalize variableXml junk0 junk h (its.map fun it => (it.1, it.2.2)) = y at h2
  generalize xmlFate (startLength (slaveGroup h name (mediumLookup h.medium))) (whole (recordGroupsCut none 0 its)) = fate at h2
  cases fate with
  | outside => obtain ⟨n, i, rfl⟩ := h2; exact ⟨n, i, rfl⟩
  | complete => obtain ⟨m, rfl, e⟩ := h2; exact ⟨m, rfl, e⟩
  | cut n => obtain ⟨m, rfl, e⟩ := h2; exact ⟨m, rfl, e⟩

/-- C91 on the wire, for records with texts of any length: the meter can be reached and answers the request, in any pieces, with a legal
telegram with the records `rs`.  Then the tool prints the document of the answer, its beginning, or writes outside a buffer, as
the lengths of the printed texts say. -/
theorem C91_wire_exact (init : Bool) (junk0 : Nat → Byte) (junk : Nat → Nat → Byte) (stamp : Option (List Byte)) (hst : ∀ s, stamp = some s → ∃ t, IsoText t s)
    (k : Kind) (env : Env) (ho : IsOpen k env) (hw : Mbus.Writable env) (purge : Int) (hp : purge ≠ PURGE_S2M)
    (before ready after : List (List Byte)) (addr : List Byte) (dest : Byte)
    (hi : if init then Resettable env before ready else ready = before) (hreach : Reachable env addr ready dest after)
    (c a : Byte) (p : List Byte) (hl : Spec.Telegram.Legal (.data c a 0x72 p)) (hdir : c &&& 0x40 = 0) (h12 : 12 ≤ p.length)
    (cs : List (List Byte)) (hcs : Chunks cs) (hw2 : cs.flatten = (Spec.Telegram.data c a 0x72 p).wire)
    (hr : env.respond (after ++ [(Spec.Telegram.short 0x5B dest).wire]) = evs cs)
    (h : VarHeader) (hh : HeaderIs h p) (rs : List Rec) (ht : Tiles (p.drop 12) rs) (units : List (List Byte)) (hu : units.length = rs.length)
    (hs : ∀ it ∈ (rs.map mkRec).zip (units.map (·, stamp)), Spec.Writable it) :
    ∃ name, productName h = .ok name ∧
      PrintedAs (requestTool init junk0 junk stamp ((busLink k env).ops purge) ⟨[], before⟩ addr)
        (fun text => ⟨0, [.xml text], ⟨[], after ++ [(Spec.Telegram.short 0x5B dest).wire]⟩⟩)
        (document (slaveGroup h name (mediumLookup h.medium) :: recordGroupsCut none 0 ((rs.map mkRec).zip (units.map (·, stamp)))))
        (xmlFate (startLength (slaveGroup h name (mediumLookup h.medium))) (whole (recordGroupsCut none 0 ((rs.map mkRec).zip (units.map (·, stamp)))))) := by
  obtain ⟨g, hrecv, hg⟩ := recv_telegram k env ho purge hp (after ++ [(Spec.Telegram.short 0x5B dest).wire]) cs hcs _ hl hdir hw2 Frame.zero
  obtain ⟨name, x, h1, hx, h0, hm⟩ := frameDataXml_exact junk0 junk stamp hst g c a p hg hdir h12 hl.2 h hh rs ht units hu hs
  refine ⟨name, h1, ?_⟩
  unfold requestTool
  have hinit : maybeInit init ((busLink k env).ops purge) ⟨[], before⟩ = .ok (true, ⟨[], ready⟩) := by
    cases init with
    | false => simp only [Bool.false_eq_true, if_false] at hi; rw [hi]; rfl
    | true => exact init_wire k env ho hw purge before ready hi
  rw [hinit, ok_bind]
  simp only
  rw [if_neg (by decide), reach_wire k env ho hw purge hp addr ready dest after hreach, ok_bind]
  simp only
  unfold requestFrom
  rw [bus_sendRequest k env ho hw purge after dest.toNat (by have := dest.toNat_lt; omega), ok_bind]
  simp only [Int.toNat_natCast, UInt8.ofNat_toNat]
  rw [if_neg (by decide), hr]
  show PrintedAs (recvFrame (busLink k env) purge ⟨evs cs, _⟩ Frame.zero >>= _) _ _ _
  rw [hrecv, ok_bind]
  simp only
  rw [if_neg (fun h => h rfl), hx, ok_bind]
  simp only
  rw [if_neg (by decide)]
  refine printed_of_meets hm h0 _ _ ?_
  intro m t e
  dsimp only
  rw [e]
  rfl

/-- C92 on the wire, for records with texts of any length (the rest as in C92_wire_partial). -/
theorem C92_wire_exact (junk0 : Nat → Byte) (junk : Nat → Nat → Byte) (stamps : Nat → Option (List Byte)) (hst : ∀ i s, stamps i = some s → ∃ t, IsoText t s)
    (k : Kind) (env : Env) (ho : IsOpen k env) (hw : Mbus.Writable env) (purge : Int) (hp : purge ≠ PURGE_S2M)
    (before ready after : List (List Byte)) (addr : List Byte) (dest : Byte) (hi : Resettable env before ready) (hreach : Reachable env addr ready dest after)
    (ts : List Spec.Telegram) (hts : Readout ts) (fate : Nat → Fate) (henv : env.after after = meterEnv dest ts fate)
    (hnoise : ∀ n b, fate n = .noise b → b ≠ 0xE5 ∧ b ≠ 0x10 ∧ b ≠ 0x68) (st : Settings) (max : Nat) (hmax : st.maxDataRetry = max)
    (hfair : ∀ n, ∃ j, j ≤ max ∧ fate (n + j) = .delivered) (mf : Int) (hmf : (ts.length : Int) ≤ mf)
    (h : VarHeader) (hh : ∀ c a ci p, ts.head? = some (.data c a ci p) → HeaderIs h p)
    (tss : List (List Item)) (hl : tss.length = ts.length) (hits : ∀ i (h1 : i < ts.length) (h2 : i < tss.length), TelegramReads ts[i] (stamps i) tss[i])
    (hs : ∀ its ∈ tss, ∀ it ∈ its, Spec.Writable it) (hc : total tss < 2 ^ 31) (hk : ts.length < 2 ^ 31) :
    ∃ name b, productName h = .ok name ∧
      PrintedAs (multiTool junk0 junk stamps ((busLink k env).ops purge) st ⟨[], before⟩ mf addr) (fun text => ⟨0, [.xml text], b⟩)
        (document (slaveGroup h name (mediumLookup h.medium) :: readoutGroupsCut tss))
        (xmlFate (startLength (slaveGroup h name (mediumLookup h.medium))) (whole (readoutGroupsCut tss))) := by
  obtain ⟨out, h1, h2, h3, _⟩ := C73_lossy_readout k dest ts hts fate hnoise purge hp st max hmax hfair mf hmf Frame.zero
  have hsim := sendrecv_sim _ _ _ (bus_simulates k env after purge) st ⟨[], []⟩ dest.toNat Frame.zero mf
  rw [henv, h1] at hsim
  unfold multiTool
  rw [init_wire k env ho hw purge before ready hi, ok_bind]
  simp only
  rw [if_neg (by decide), reach_wire k env ho hw purge hp addr ready dest after hreach, ok_bind]
  simp only
  simp only [Bus.earlier, List.append_nil, Except.map] at hsim
  rw [hsim, ok_bind]
  simp only [mapOut]
  simp only [h2, ne_eq, not_true_eq_false, if_false]
  have hpw := items_pointwise stamps ts out.chain tss 0 (Readout.basics hts) h3 hl (by intro i a b; rw [Nat.zero_add]; exact hits i a b)
  cases ts with
  | nil => exact hts.elim
  | cons t ts =>
    cases tss with
    | nil => cases hl
    | cons its tss =>
      cases hch : out.chain with
      | nil => rw [hch] at h3; cases h3
      | cons g gs =>
        rw [hch] at h3 hpw
        cases h3 with
        | cons hgt hgs =>
          rw [List.zipIdx_cons, List.map_cons] at hpw ⊢
          simp only
          cases hpw with
          | cons hp1 hp2 =>
            have h0 := hits 0 (by simp) (by simp)
            obtain ⟨more, hrt⟩ := Readout.basics hts t (by simp)
            have hread := items_reads hrt hgt h0 h (fun c a ci p e => hh c a ci p (by rw [← e]; rfl))
            have hstamp : ∀ x ∈ its :: tss, ∀ it ∈ x, StampOk it.2.2 ∧ ∀ s, it.2.2 = some s → CharData s := by
              intro x hx
              obtain ⟨i, hi, rfl⟩ := List.mem_iff_getElem.mp hx
              obtain ⟨_, _, _, _, _, _, _, hs⟩ := hits i (by rw [← hl]; exact hi) hi
              exact iso_items (fun it hit s e => hst i s (by rw [← hs it hit]; exact e))
            obtain ⟨name, e1, e2⟩ := C113_frame junk0 junk (g, stamps 0) _ h its tss hread hp1.2 hp2
              (fun x hx it hit => ⟨hs x hx it hit, (hstamp x hx it hit).1⟩) hc (by rw [hl]; exact hk)
            refine ⟨name, Bus.earlier after out.state, e1, ?_⟩
            refine printed_of_meets e2 (slave_records_nonul _ _ _ _ (readoutGroupsCut_in _ (fun x hx it hit => (hstamp x hx it hit).2))) _ _ ?_
            intro m t e
            dsimp only
            rw [e]
            rfl

/-- C98 for `mbus_parse_hex`, for records with texts of any length. -/
theorem C98_hex_exact (uninit : Buf 4096) (dump : Buf 256) (junk0 : Nat → Byte) (junk : Nat → Nat → Byte) (file : List Byte)
    (c a : Byte) (p : List Byte) (hl : Spec.Telegram.Legal (.data c a 0x72 p)) (hx : HexText file (Spec.Telegram.data c a 0x72 p).wire)
    (hf : file.length ≤ 4096) (hdir : c &&& 0x40 = 0) (h12 : 12 ≤ p.length)
    (h : VarHeader) (hh : HeaderIs h p) (rs : List Rec) (ht : Tiles (p.drop 12) rs) (units : List (List Byte)) (hu : units.length = rs.length)
    (hs : ∀ it ∈ (rs.map mkRec).zip (units.map (·, none)), Spec.Writable it) :
    ∃ name, productName h = .ok name ∧ PrintedAs (parseHexTool uninit dump junk0 junk false file) (fun text => (0, text))
      (document (slaveGroup h name (mediumLookup h.medium) :: recordGroupsCut none 0 ((rs.map mkRec).zip (units.map (·, none)))))
      (xmlFate (startLength (slaveGroup h name (mediumLookup h.medium))) (whole (recordGroupsCut none 0 ((rs.map mkRec).zip (units.map (·, none)))))) := by
  obtain ⟨d, g, h1, h2, h3, _⟩ := hex_telegram uninit file _ hl (by simp) hx hf
  obtain ⟨name, x, e1, e2, h0, hm⟩ := frameDataXml_exact junk0 junk none (fun s e => by cases e) g c a p h3 hdir h12 hl.2 h hh rs ht units hu hs
  refine ⟨name, e1, ?_⟩
  unfold parseHexTool
  rw [h1, ok_bind]
  simp only
  rw [h2, ok_bind]
  simp only
  rw [if_neg (by decide), if_neg (by decide), e2, ok_bind]
  simp only
  rw [if_neg (by decide)]
  unfold toolXml
  rw [if_neg (by decide)]
  refine printed_of_meets hm h0 _ _ ?_
  intro m t e
  show (cstr m >>= _) = _
  rw [e]
  rfl

/-- C98 for `mbus_parse`, for records with texts of any length. -/
theorem C98_binary_exact (dump : Buf 256) (junk0 : Nat → Byte) (junk : Nat → Nat → Byte)
    (c a : Byte) (p : List Byte) (hl : Spec.Telegram.Legal (.data c a 0x72 p)) (h256 : (Spec.Telegram.data c a 0x72 p).wire.length ≤ 256)
    (hdir : c &&& 0x40 = 0) (h12 : 12 ≤ p.length)
    (h : VarHeader) (hh : HeaderIs h p) (rs : List Rec) (ht : Tiles (p.drop 12) rs) (units : List (List Byte)) (hu : units.length = rs.length)
    (hs : ∀ it ∈ (rs.map mkRec).zip (units.map (·, none)), Spec.Writable it) :
    ∃ name, productName h = .ok name ∧ PrintedAs (parseTool dump junk0 junk false (Spec.Telegram.data c a 0x72 p).wire)
      (fun text => (0, telegramLine (.data c a 0x72 p) ++ [10] ++ text))
      (document (slaveGroup h name (mediumLookup h.medium) :: recordGroupsCut none 0 ((rs.map mkRec).zip (units.map (·, none)))))
      (xmlFate (startLength (slaveGroup h name (mediumLookup h.medium))) (whole (recordGroupsCut none 0 ((rs.map mkRec).zip (units.map (·, none)))))) := by
  obtain ⟨g, h1, h3, h4⟩ := parsed_telegram Frame.zero _ hl (by simp)
  obtain ⟨name, x, e1, e2, h0, hm⟩ := frameDataXml_exact junk0 junk none (fun s e => by cases e) g c a p h3 hdir h12 hl.2 h hh rs ht units hu hs
  refine ⟨name, e1, ?_⟩
  obtain ⟨fs, p1, _⟩ := C96_frame_print_partial dump [g] [.data c a 0x72 p] (by simp) (.cons ⟨hl, h3, h4, h256⟩ .nil)
  unfold parseTool
  generalize hw : (Spec.Telegram.data c a 0x72 p).wire = w at *
  have hmin : min w.length 1024 = w.length := by omega
  rw [List.take_of_length_le (show w.length ≤ 1024 by omega), hmin, parse_take _ _ _ (by simp), List.take_left' rfl, h1, ok_bind]
  simp only
  rw [e2, ok_bind]
  simp only
  rw [p1, ok_bind]
  simp only
  unfold toolXml
  rw [if_neg (by decide)]
  refine printed_of_meets hm h0 _ _ ?_
  intro m t e
  show (cstr m >>= _) = _
  rw [e]
  simp [unlines]

/-- Every readout that meets the hypotheses of C91_wire_partial, C92_wire_partial, C98_hex_partial and C98_binary_partial (with their
examples) meets those of the theorems above. -/
example (t : Spec.Telegram) (stamp : Option (List Byte)) (its : List Item) (h : TelegramItems t stamp its) :
    TelegramReads t stamp its ∧ ∀ it ∈ its, Spec.Writable it := ⟨h.1, fun it hit => ⟨(h.2 it hit).unit, (h.2 it hit).storage⟩⟩

/-- the telegram of C113_cut on the wire -/
def edgeWire : Spec.Telegram := .data 0x08 1 0x72 (hdr ++ ((List.replicate 32 [0x00, 0x5A]).flatten ++ edgeRec.encode))

/-- a bus on which resets stay unanswered and requests to address 1 are answered with it, in three pieces -/
def edgeBus : Env :=
  { respond := fun sent => if sent.getLast? = some (Spec.Telegram.short 0x5B 1).wire then evs [edgeWire.wire.take 1, (edgeWire.wire.drop 1).take 7, edgeWire.wire.drop 8] else []
    junk := fun _ => 0
    wret := fun _ n => n
    tty := true }

theorem edge_tiles : Tiles ((hdr ++ ((List.replicate 32 [0x00, 0x5A]).flatten ++ edgeRec.encode)).drop 12) (List.replicate 32 flowRec ++ [edgeRec]) := by
  rw [List.drop_left' (show hdr.length = 12 from rfl)]
  refine flow_tiles 32 ?_
  have := Tiles.cons edge_legal .nil
  rwa [List.append_nil] at this

theorem edge_items : ((List.replicate 32 flowRec ++ [edgeRec]).map mkRec).zip
    ((List.replicate 32 flowItem.2.1 ++ [edgeItem.2.1]).map (·, (none : Option (List Byte)))) = List.replicate 32 flowItem ++ [edgeItem] := by
  rw [List.map_append, List.map_append, List.map_replicate, List.map_replicate, List.zip_append (by simp), List.zip_replicate']
  rfl

/-- C91 and C98 do not hold for this telegram: the tools print the first 8191 characters of the document and report success. -/
theorem C91_cut_violation (k : Kind) (junk0 : Nat → Byte) (junk : Nat → Nat → Byte) : ∃ doc,
    doc = document (slaveGroup hdrHeader [] (mediumLookup hdrHeader.medium) :: recordGroupsCut none 0 (List.replicate 32 flowItem ++ [edgeItem])) ∧
    8191 < doc.length ∧
    requestTool false junk0 junk none ((busLink k edgeBus).ops PURGE_M2S) ⟨[], []⟩ (cs! "1") =
      .ok ⟨0, [.xml (doc.take 8191)], ⟨[], [(Spec.Telegram.short 0x5B 1).wire]⟩⟩ := by
  obtain ⟨name, hp, hm⟩ := C91_wire_exact false junk0 junk none (fun s e => by cases e) k edgeBus (by cases k <;> simp [IsOpen, edgeBus]) (fun _ _ => rfl) PURGE_M2S (by decide)
    [] [] [] (cs! "1") 1 rfl (.primary 1 (.digit 49 (by decide)) (fun h => absurd h.1 (by decide)) (by decide)) 0x08 1
    (hdr ++ ((List.replicate 32 [0x00, 0x5A]).flatten ++ edgeRec.encode)) ⟨by decide +kernel, by decide +kernel⟩ (by decide) (by decide +kernel)
    [edgeWire.wire.take 1, (edgeWire.wire.drop 1).take 7, edgeWire.wire.drop 8] (by unfold Chunks; decide +kernel) (by decide +kernel) (by decide +kernel)
    hdrHeader (by unfold HeaderIs; decide +kernel) (List.replicate 32 flowRec ++ [edgeRec]) edge_tiles (List.replicate 32 flowItem.2.1 ++ [edgeItem.2.1]) (by simp)
    (by rw [edge_items]; exact fun it hit => (edge_writable it hit).1)
  rw [hdr_product] at hp
  injection hp with hp
  subst hp
  rw [edge_items] at hm
  have hf := edge_fate
  rw [show readoutGroupsCut [List.replicate 32 flowItem ++ [edgeItem]] = recordGroupsCut none 0 (List.replicate 32 flowItem ++ [edgeItem]) from rfl] at hf
  rw [hf] at hm
  exact ⟨_, rfl, hm⟩

/-! Direct instances of the theorems above. -/

/-- the time stamp of `volumeItem` -/
theorem volume_stamp : ∀ s, volumeItem.2.2 = some s → ∃ t, IsoText t s := by
  intro s h
  injection h with h
  exact ⟨_, ⟨2020, 1, 1, 0, 0, 0⟩, ⟨by decide, by decide, by decide, by decide, by decide, by decide⟩, rfl, by rw [← h]; decide +kernel⟩

theorem volume_writable : Spec.Writable volumeItem := ⟨volume_showable.1.unit, volume_showable.1.storage⟩

theorem volume_primary (env : Env) (before : List (List Byte)) : Reachable env (cs! "1") before 1 before :=
  .primary 1 (.digit 49 (by decide)) (fun h => absurd h.1 (by decide)) (by decide)

/-- after the two resets `lossyBus` is a meter that misses the first request -/
theorem lossyBus_after : lossyBus.after [pingWire 0xFD, pingWire 0xFD] = meterEnv 1 [volumeWire] fun n => if n = 0 then .requestLost else .delivered := by
  have hf : (fun s => lossyBus.respond ([pingWire 0xFD, pingWire 0xFD] ++ s)) =
      (meterEnv 1 [volumeWire] fun n => if n = 0 then .requestLost else .delivered).respond := by
    funext s
    cases s with
    | nil => rfl
    | cons x s =>
      simp only [lossyBus]
      rw [if_neg (by simp)]
      rfl
  unfold Env.after
  rw [hf]
  rfl

theorem volume_readout : Readout [volumeWire] := ⟨0x08, 1, _, _, rfl, by decide, by decide, by decide, volume_tiles, by simp [EndsWithMore]⟩

theorem volume_telegram_reads : ∀ i (_ : i < [volumeWire].length) (_ : i < [[volumeItem]].length), TelegramReads [volumeWire][i] volumeItem.2.2 [[volumeItem]][i] := by
  intro i h1 h2
  have : i = 0 := by simp at h1; omega
  subst this
  refine ⟨0x08, 1, _, _, rfl, volume_tiles, rfl, ?_⟩
  intro it hit
  have : it = volumeItem := by simpa using hit
  rw [this]

example (k : Kind) (junk0 : Nat → Byte) (junk : Nat → Nat → Byte) := C91_wire_exact true junk0 junk volumeItem.2.2 volume_stamp k volumeBus
  (by cases k <;> simp [IsOpen, volumeBus]) (fun _ _ => rfl) PURGE_M2S (by decide) [] [pingWire 0xFD, pingWire 0xFD] [pingWire 0xFD, pingWire 0xFD] (cs! "1") 1
  ⟨rfl, ⟨[], by simp [Chunks], by decide⟩, [[0xE5]], by simp [Chunks], by decide⟩ (volume_primary _ _) 0x08 1 (hdr ++ [0x01, 0x13, 5]) ⟨by decide, by decide⟩
  (by decide) (by decide)
  [volumeWire.wire.take 1, (volumeWire.wire.drop 1).take 7, volumeWire.wire.drop 8] (by unfold Chunks; decide +kernel) (by decide +kernel) (by decide +kernel)
  hdrHeader (by unfold HeaderIs; decide) [.value 0x01 [] 0x13 [] [] [5]] volume_tiles [cs! "Volume (m m^3)"] rfl
  (by intro it hit; have : it = volumeItem := List.mem_singleton.mp hit; rw [this]; exact volume_writable)
example (k : Kind) (junk0 : Nat → Byte) (junk : Nat → Nat → Byte) := C92_wire_exact junk0 junk (fun _ => volumeItem.2.2) (fun _ => volume_stamp) k lossyBus
  (by cases k <;> simp [IsOpen, lossyBus]) (fun _ _ => rfl) PURGE_M2S (by decide) [] [pingWire 0xFD, pingWire 0xFD] [pingWire 0xFD, pingWire 0xFD] (cs! "1") 1
  ⟨rfl, ⟨[], by simp [Chunks], by decide⟩, [], by simp [Chunks], by decide⟩ (volume_primary _ _) [volumeWire] volume_readout _ lossyBus_after
  (by intro n b h; split at h <;> cases h) Settings.default 3 rfl (by intro n; refine ⟨1, by decide, by simp⟩) 16 (by decide) hdrHeader
  (by intro c a ci p h; cases h; rfl) [[volumeItem]] rfl volume_telegram_reads (by
    intro its h it hit
    rw [List.mem_singleton.mp h] at hit
    rw [List.mem_singleton.mp hit]
    exact volume_writable) (by decide) (by decide)
example (uninit : Buf 4096) (dump : Buf 256) (junk0 : Nat → Byte) (junk : Nat → Nat → Byte) :=
  C98_hex_exact uninit dump junk0 junk (hexDump volumeWire.wire) 0x08 1 (hdr ++ [0x01, 0x13, 5]) ⟨by decide, by decide⟩ (hexText_dump _)
    (by decide +kernel) (by decide) (by decide) hdrHeader (by unfold HeaderIs; decide) [.value 0x01 [] 0x13 [] [] [5]] volume_tiles [cs! "Volume (m m^3)"] rfl
    (by intro it hit; rw [List.mem_singleton.mp hit]; exact ⟨volume_showable.1.unit, volume_showable.1.storage⟩)

end Mbus
