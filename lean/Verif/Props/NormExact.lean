import Verif.Props.ToolExact
/-
C113 and C98 for normalised documents: when the returned text is well-formed, and what the parse tools print, for texts of any length.
-/
namespace Mbus
open Spec

local macro "isname" : tactic => `(tactic| first | decide | (dsimp only; decide))

theorem charData_fmtF (x : Flt) : CharData (fmtF x) := by
  have hs : ∀ neg : Bool, CharData (if neg then [45] else []) := by
    intro neg
    cases neg
    · exact .nil
    · exact charData_all _ (by decide +kernel)
  have hd : ∀ n, CharData (decDigits n) := charData_dec
  cases x with
  | inf neg => exact charData_append (hs neg) (charData_all _ (by decide +kernel))
  | nan neg => exact charData_append (hs neg) (charData_all _ (by decide +kernel))
  | fin neg mag =>
    refine charData_append (charData_append (charData_append (hs neg) (hd _)) (charData_all _ (by decide +kernel))) ?_
    refine charData_append (charData_all _ ?_) (hd _)
    intro c hc
    rw [List.eq_of_mem_replicate hc]
    decide +kernel

theorem charData_normText (n : NRecord) : CharData (normTextCut n) := by
  unfold normTextCut
  split
  · exact charData_fmtF _
  · exact escapeInto_charData _

theorem normGroupCut_in (id : Nat) (n : Option NRecord) : GroupIn (normGroupCut id n) := by
  have key : ∀ l ∈ (normGroupCut id n).leaves, (IsName l.1 ∧ CharData l.2) ∧ NoRoot l.1 := by
    intro l hl
    cases n with
    | none => simp [normGroupCut] at hl
    | some n =>
      simp only [normGroupCut, List.mem_cons, List.mem_append, List.not_mem_nil, or_false] at hl
      rcases hl with ((rfl | rfl) | hl) | (rfl | rfl | rfl)
      · exact ⟨⟨by isname, escapeInto_charData _⟩, by isname⟩
      · exact ⟨⟨by isname, charData_fmtInt _⟩, by isname⟩
      · split at hl
        · simp only [List.mem_cons, List.not_mem_nil, or_false] at hl
          rcases hl with rfl | rfl
          · exact ⟨⟨by isname, charData_fmtInt _⟩, by isname⟩
          · exact ⟨⟨by isname, charData_fmtInt _⟩, by isname⟩
        · simp at hl
      · exact ⟨⟨by isname, escapeInto_charData _⟩, by isname⟩
      · exact ⟨⟨by isname, escapeInto_charData _⟩, by isname⟩
      · exact ⟨⟨by isname, charData_normText n⟩, by isname⟩
  refine ⟨⟨by simp only [normGroupCut]; decide, ?_, fun l hl => (key l hl).1⟩, by simp only [normGroupCut]; decide, fun l hl => (key l hl).2⟩
  intro a ha
  simp only [normGroupCut, List.mem_cons, List.not_mem_nil, or_false] at ha
  subst ha
  exact ⟨by isname, charData_dec id, fun h => (decDigits_harmless id _ h).2 rfl⟩

theorem normGroupsCut_in (start : Nat) (ns : List (Option NRecord)) : ∀ g ∈ normGroupsCut start ns, GroupIn g := by
  intro g hg
  obtain ⟨q, _, rfl⟩ := List.mem_map.mp hg
  exact normGroupCut_in _ _

/-- C113, C79: the text `mbus_frame_data_xml_normalized` returns for a variable data telegram is a well-formed document exactly
if the lengths of the lines say that it is complete. -/
theorem C113_normalized_wellFormed (junk0 : Nat → Byte) (junk : Nat → Nat → Byte) (x : FrameData) (hx : x.type = DATA_VARIABLE)
    (hd : ∀ r ∈ x.var.records, Delivered r ∧ StorageOk r) :
    ∃ p ns, productName x.var.header = .ok p ∧ Pointwise (fun r n => ∃ j leak, parseVariableRecord j r = .ok (n, leak)) x.var.records ns ∧
      ∀ m text, frameDataXmlNormalized junk0 junk x = .ok (some m) → cstr m = .ok text →
        (WellFormedXml text ↔
          xmlFate (startLength (slaveGroup x.var.header p (mediumLookup x.var.header.medium))) ((normGroupsCut 0 ns).map lineLengths) = .complete) := by
  obtain ⟨p, ns, hp, hn, hm⟩ := C113_normalized junk0 junk x hx hd
  refine ⟨p, ns, hp, hn, ?_⟩
  have hg : ∀ g ∈ slaveGroup x.var.header p (mediumLookup x.var.header.medium) :: normGroupsCut 0 ns, GroupIn g := by
    intro g hg
    rcases List.mem_cons.mp hg with rfl | hg
    · exact slaveGroup_in _ p _
    · exact normGroupsCut_in _ _ g hg
  intro m text ho htext
  generalize slaveGroup x.var.header p (mediumLookup x.var.header.medium) :: normGroupsCut 0 ns = gs at hm hg
  generalize xmlFate _ _ = fate at hm ⊢
  have h0 : (0 : Byte) ∉ document gs := document_nonul gs (fun g h => (hg g h).toGroupOk)
  rw [ho] at hm
  cases fate with
  | outside => obtain ⟨n, i, h⟩ := hm; cases h
  | complete =>
    obtain ⟨m', h1, h2⟩ := hm
    cases h1
    rw [cstr_prefix _ _ h2, upToNul_eq _ h0] at htext
    cases htext
    exact iff_of_true (document_wellFormed gs (fun g h => (hg g h).toGroupOk)) rfl
  | cut n =>
    obtain ⟨m', h1, h2, h3⟩ := hm
    cases h1
    rw [cstr_prefix _ _ h3, upToNul_eq _ (fun h => h0 (List.mem_of_mem_take h))] at htext
    cases htext
    exact iff_of_false (cut_notWellFormed gs hg n h2) (fun h => by cases h)

/-- the normalised document of a telegram -/
theorem normalized_exact (junk0 : Nat → Byte) (junk : Nat → Nat → Byte) (g : Frame) (c a : Byte) (p : List Byte)
    (hg : Carries g (.data c a 0x72 p)) (hdir : c &&& 0x40 = 0) (h12 : 12 ≤ p.length) (h252 : p.length ≤ 252)
    (h : VarHeader) (hh : HeaderIs h p) (rs : List Rec) (ht : Tiles (p.drop 12) rs) (hs : ∀ r ∈ rs, StorageOk (mkRec r)) :
    ∃ name x ns, productName h = .ok name ∧ frameDataParse g FrameData.new = .ok (0, x) ∧
      Pointwise (fun r n => ∃ j leak, parseVariableRecord j (mkRec r) = .ok (n, leak)) rs ns ∧
      (0 : Byte) ∉ document (slaveGroup h name (mediumLookup h.medium) :: normGroupsCut 0 ns) ∧
      Meets (frameDataXmlNormalized junk0 junk x) some (document (slaveGroup h name (mediumLookup h.medium) :: normGroupsCut 0 ns))
        (xmlFate (startLength (slaveGroup h name (mediumLookup h.medium))) ((normGroupsCut 0 ns).map lineLengths)) := by
  have hread := reads_carries g c a p hg hdir h12 h252 h hh rs ht
  have hread0 := hread
  obtain ⟨_, x, hx, hty, hhd, hrs⟩ := hread
  obtain ⟨name, ns, h1, h2, h3⟩ := C113_normalized junk0 junk x hty (by
    rw [hrs]
    intro r hr
    obtain ⟨q, hq, rfl⟩ := List.mem_map.mp hr
    exact ⟨hread0.delivered _ hr, hs q hq⟩)
  rw [hhd] at h1 h3
  rw [hrs] at h2
  refine ⟨name, x, ns, h1, hx, ?_, slave_records_nonul _ _ _ _ (normGroupsCut_in _ _), h3⟩
  clear h3 hs ht hrs hread0
  induction rs generalizing ns with
  | nil => cases h2; exact .nil
  | cons r rs ih => cases h2 with | cons a b => exact .cons a (ih _ b)

/-- C98 for `mbus_parse_hex -n`, for records with texts of any length: the tool prints the normalised document (`ns`: the normalised
records), its beginning, or writes outside a buffer, as the lengths of the lines say. -/
theorem C98_hex_normalized_exact (uninit : Buf 4096) (dump : Buf 256) (junk0 : Nat → Byte) (junk : Nat → Nat → Byte) (file : List Byte)
    (c a : Byte) (p : List Byte) (hl : Spec.Telegram.Legal (.data c a 0x72 p)) (hx : HexText file (Spec.Telegram.data c a 0x72 p).wire)
    (hf : file.length ≤ 4096) (hdir : c &&& 0x40 = 0) (h12 : 12 ≤ p.length)
    (h : VarHeader) (hh : HeaderIs h p) (rs : List Rec) (ht : Tiles (p.drop 12) rs) (hs : ∀ r ∈ rs, StorageOk (mkRec r)) :
    ∃ name ns, productName h = .ok name ∧ Pointwise (fun r n => ∃ j leak, parseVariableRecord j (mkRec r) = .ok (n, leak)) rs ns ∧
      PrintedAs (parseHexTool uninit dump junk0 junk true file) (fun text => (0, text))
        (document (slaveGroup h name (mediumLookup h.medium) :: normGroupsCut 0 ns))
        (xmlFate (startLength (slaveGroup h name (mediumLookup h.medium))) ((normGroupsCut 0 ns).map lineLengths)) := by
  obtain ⟨d, g, h1, h2, h3, _⟩ := hex_telegram uninit file _ hl (by simp) hx hf
  obtain ⟨name, x, ns, e1, e2, e3, h0, hm⟩ := normalized_exact junk0 junk g c a p h3 hdir h12 hl.2 h hh rs ht hs
  refine ⟨name, ns, e1, e3, ?_⟩
  unfold parseHexTool
  rw [h1, ok_bind]
  simp only
  rw [h2, ok_bind]
  simp only
  rw [if_neg (by decide), if_neg (by decide), e2, ok_bind]
  simp only
  rw [if_neg (by decide)]
  unfold toolXml
  rw [if_pos (by decide)]
  refine printed_of_meets hm h0 _ _ ?_
  intro m t e
  show (cstr m >>= _) = _
  rw [e]
  rfl

/-- C98 for `mbus_parse -n`, for records with texts of any length. -/
theorem C98_binary_normalized_exact (dump : Buf 256) (junk0 : Nat → Byte) (junk : Nat → Nat → Byte)
    (c a : Byte) (p : List Byte) (hl : Spec.Telegram.Legal (.data c a 0x72 p)) (h256 : (Spec.Telegram.data c a 0x72 p).wire.length ≤ 256)
    (hdir : c &&& 0x40 = 0) (h12 : 12 ≤ p.length)
    (h : VarHeader) (hh : HeaderIs h p) (rs : List Rec) (ht : Tiles (p.drop 12) rs) (hs : ∀ r ∈ rs, StorageOk (mkRec r)) :
    ∃ name ns, productName h = .ok name ∧ Pointwise (fun r n => ∃ j leak, parseVariableRecord j (mkRec r) = .ok (n, leak)) rs ns ∧
      PrintedAs (parseTool dump junk0 junk true (Spec.Telegram.data c a 0x72 p).wire)
        (fun text => (0, telegramLine (.data c a 0x72 p) ++ [10] ++ text))
        (document (slaveGroup h name (mediumLookup h.medium) :: normGroupsCut 0 ns))
        (xmlFate (startLength (slaveGroup h name (mediumLookup h.medium))) ((normGroupsCut 0 ns).map lineLengths)) := by
  obtain ⟨g, h1, h3, h4⟩ := parsed_telegram Frame.zero _ hl (by simp)
  obtain ⟨name, x, ns, e1, e2, e3, h0, hm⟩ := normalized_exact junk0 junk g c a p h3 hdir h12 hl.2 h hh rs ht hs
  refine ⟨name, ns, e1, e3, ?_⟩
  obtain ⟨fs, p1, _⟩ := C96_frame_print_partial dump [g] [.data c a 0x72 p] (by simp) (.cons ⟨hl, h3, h4, h256⟩ .nil)
  unfold parseTool
  generalize hw : (Spec.Telegram.data c a 0x72 p).wire = w at *
  have hmin : min w.length 1024 = w.length := by omega
  rw [List.take_of_length_le (show w.length ≤ 1024 by omega), hmin, parse_take _ _ _ (by simp), List.take_left' rfl, h1, ok_bind]
  simp only
  rw [e2, ok_bind]
  simp only
  rw [p1, ok_bind]
  simp only
  unfold toolXml
  rw [if_pos (by decide)]
  refine printed_of_meets hm h0 _ _ ?_
  intro m t e
  show (cstr m >>= _) = _
  rw [e]
  simp [unlines]

/-- Hypotheses of the theorems: the telegram with 33 records of C91_cut_violation. -/
example (dump : Buf 256) (junk0 : Nat → Byte) (junk : Nat → Nat → Byte) :
    ∃ name ns, productName hdrHeader = .ok name ∧
      Pointwise (fun r n => ∃ j leak, parseVariableRecord j (mkRec r) = .ok (n, leak)) (List.replicate 32 flowRec ++ [edgeRec]) ns ∧
      PrintedAs (parseTool dump junk0 junk true edgeWire.wire) (fun text => (0, telegramLine edgeWire ++ [10] ++ text))
        (document (slaveGroup hdrHeader name (mediumLookup hdrHeader.medium) :: normGroupsCut 0 ns))
        (xmlFate (startLength (slaveGroup hdrHeader name (mediumLookup hdrHeader.medium))) ((normGroupsCut 0 ns).map lineLengths)) :=
  C98_binary_normalized_exact dump junk0 junk 0x08 1 (hdr ++ ((List.replicate 32 [0x00, 0x5A]).flatten ++ edgeRec.encode))
    ⟨by decide +kernel, by decide +kernel⟩ (by decide +kernel) (by decide) (by decide +kernel)
    hdrHeader (by unfold HeaderIs; decide +kernel) _ edge_tiles (by
      intro r hr
      have : r = flowRec ∨ r = edgeRec := by
        rcases List.mem_append.mp hr with h | h
        · exact .inl (List.eq_of_mem_replicate h)
        · exact .inr (List.mem_singleton.mp h)
      rcases this with rfl | rfl
      · exact ⟨by decide +kernel, by decide +kernel⟩
      · exact ⟨by decide +kernel, by decide +kernel⟩)

/-! Direct instances of the theorems above. -/

/-- the normalised document of the telegram with one volume record -/
example (uninit : Buf 4096) (dump : Buf 256) (junk0 : Nat → Byte) (junk : Nat → Nat → Byte) :=
  C98_hex_normalized_exact uninit dump junk0 junk (hexDump volumeWire.wire) 0x08 1 (hdr ++ [0x01, 0x13, 5]) ⟨by decide, by decide⟩ (hexText_dump _)
    (by decide +kernel) (by decide) (by decide) hdrHeader (by unfold HeaderIs; decide) [.value 0x01 [] 0x13 [] [] [5]] volume_tiles
    (by intro r hr; rw [List.mem_singleton.mp hr]; exact volume_storage)
example (junk0 : Nat → Byte) (junk : Nat → Nat → Byte) (x : FrameData) (hx : x.type = DATA_VARIABLE) (hr : x.var.records = [volumeItem.1]) :=
  C113_normalized_wellFormed junk0 junk x hx (by intro r h; rw [hr, List.mem_singleton] at h; rw [h]; exact ⟨volume_delivered, volume_storage⟩)

end Mbus
