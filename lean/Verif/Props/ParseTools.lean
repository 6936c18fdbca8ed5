import Verif.Model.ParseTools
import Verif.Props.ToolRaw
import Verif.Props.Print
import Verif.Props.XmlNorm
/-
C98: the tools that show a recorded telegram.
-/
namespace Mbus
open Spec

/-- the frame object after parsing a telegram -/
theorem parsed_telegram (f : Frame) (t : Spec.Telegram) (hl : t.Legal) (ha : t ≠ .ack) :
    ∃ g, mbusParse f t.wire t.wire.length = .ok (0, g) ∧ Carries g t ∧ StartStop g t := by
  obtain ⟨g, k1, k2⟩ := parse_code f t.wire
  rw [code_wire t hl] at k1 k2
  rcases k2 rfl with ⟨a, _, _⟩ | ⟨u, a, b, c, d, e⟩
  · exact absurd a (wire_head_ne t ha)
  · have hu : u = t := wire_inj u t c.symm
    subst hu
    refine ⟨g, k1, d, ?_⟩
    cases u with
    | ack => exact absurd rfl a
    | short c x =>
      have : g.type = 2 := d.1
      rcases e with e | e | e | e <;> simp_all [StartStop]
    | data c x ci p =>
      have : g.type = if p = [] then 3 else 4 := d.1
      rcases e with e | e | e | e <;> simp_all [StartStop] <;> split at this <;> simp_all

/-- reading a hexadecimal file with the bytes of a telegram -/
theorem hex_telegram (uninit : Buf 4096) (file : List Byte) (t : Spec.Telegram) (hl : t.Legal) (ha : t ≠ .ack)
    (hx : HexText file t.wire) (hf : file.length ≤ 4096) :
    ∃ d g, rawRead uninit file = .ok (d, t.wire.length) ∧ mbusParse Frame.zero d t.wire.length = .ok (0, g) ∧ Carries g t ∧ StartStop g t := by
  obtain ⟨d, h1, h2⟩ := rawRead_text uninit file t.wire hx hf
  obtain ⟨g, g1, g2⟩ := parsed_telegram Frame.zero t hl ha
  refine ⟨d, g, h1, ?_, g2⟩
  have : t.wire.length ≤ d.length := by
    have := congrArg List.length h2
    simp at this
    omega
  rw [parse_take _ _ _ this, h2, g1]

/-- the XML text of a telegram with variable-length data (without time stamp) -/
theorem toolXml_document (junk0 : Nat → Byte) (junk : Nat → Nat → Byte) (g : Frame) (c a : Byte) (p : List Byte)
    (hg : Carries g (.data c a 0x72 p)) (hdir : c &&& 0x40 = 0) (h12 : 12 ≤ p.length) (h252 : p.length ≤ 252)
    (h : VarHeader) (hh : HeaderIs h p) (rs : List Rec) (ht : Tiles (p.drop 12) rs) (units : List (List Byte)) (hu : units.length = rs.length)
    (hs : ∀ it ∈ (rs.map mkRec).zip (units.map (·, none)), Showable it) :
    ∃ name x m, productName h = .ok name ∧ frameDataParse g FrameData.new = .ok (0, x) ∧ toolXml junk0 junk false x = .ok (some m) ∧
      cstr m = .ok (document (slaveGroup h name (mediumLookup h.medium) :: recordGroups none 0 ((rs.map mkRec).zip (units.map (·, none))))) := by
  have hread := reads_carries g c a p hg hdir h12 h252 h hh rs ht
  have hread0 := hread
  obtain ⟨_, x, hx, hty, hhd, hrs⟩ := hread
  generalize hits : (rs.map mkRec).zip (units.map (·, none)) = its at hs ⊢
  have hi1 : its.map (·.1) = rs.map mkRec := by rw [← hits, List.map_fst_zip (by simp [hu])]
  have hi2 : ∀ it ∈ its, it.2.2 = none := by
    intro it hit
    rw [← hits] at hit
    have := (List.of_mem_zip hit).2
    obtain ⟨u, _, e⟩ := List.mem_map.mp this
    rw [← e]
  have hlen : its.length < 2 ^ 31 := by
    have e1 := congrArg List.length hi1
    simp only [List.length_map] at e1
    have e2 := tiles_count ht
    simp only [List.length_drop] at e2
    omega
  obtain ⟨m, name, h1, h2, h3⟩ := C56_variable_partial junk0 junk h its (fun it hit => ⟨hread0.delivered _ (by rw [← hi1]; exact List.mem_map_of_mem hit), hs it hit,
    by rw [hi2 it hit]; exact (fun t h => by cases h)⟩) hlen
  have hwf : WellFormedXml (document (slaveGroup h name (mediumLookup h.medium) :: recordGroups none 0 its)) := by
    apply document_wellFormed
    intro gr hgr
    rcases List.mem_cons.mp hgr with rfl | hgr
    · exact slaveGroup_ok _ _ _
    · exact recordGroups_ok _ _ (by intro it hit t he; rw [hi2 it hit] at he; cases he) _ gr hgr
  refine ⟨name, x, m, h2, hx, ?_, cstr_document hwf h3⟩
  unfold toolXml frameDataXml
  rw [if_neg (by decide), hty, if_neg (by decide), if_neg (by decide), if_pos rfl, hhd, hrs]
  have hz : (rs.map mkRec).zip ((rs.map mkRec).map fun _ => (none : Option (List Byte))) = its.map fun it => (it.1, it.2.2) := by
    have hz0 : ∀ l : List Record, l.zip (l.map fun _ => (none : Option (List Byte))) = l.map (·, none) := by
      intro l
      induction l with
      | nil => rfl
      | cons r l ih => simp [ih]
    rw [← hi1, ← items_map its none hi2, hz0]
  rw [hz, h1]
  rfl

/-- C98 (records whose texts are not too long, as in C56): `mbus_parse_hex` on a hexadecimal text of the bytes of a response telegram (of any
layout with spaces) prints exactly the document of the telegram, and succeeds.  Missing: too long texts, which overflow the buffer (C56). -/
theorem C98_hex_partial (uninit : Buf 4096) (dump : Buf 256) (junk0 : Nat → Byte) (junk : Nat → Nat → Byte) (file : List Byte)
    (c a : Byte) (p : List Byte) (hl : Spec.Telegram.Legal (.data c a 0x72 p)) (hx : HexText file (Spec.Telegram.data c a 0x72 p).wire)
    (hf : file.length ≤ 4096) (hdir : c &&& 0x40 = 0) (h12 : 12 ≤ p.length)
    (h : VarHeader) (hh : HeaderIs h p) (rs : List Rec) (ht : Tiles (p.drop 12) rs) (units : List (List Byte)) (hu : units.length = rs.length)
    (hs : ∀ it ∈ (rs.map mkRec).zip (units.map (·, none)), Showable it) :
    ∃ name, productName h = .ok name ∧ parseHexTool uninit dump junk0 junk false file =
      .ok (0, document (slaveGroup h name (mediumLookup h.medium) :: recordGroups none 0 ((rs.map mkRec).zip (units.map (·, none))))) := by
  obtain ⟨d, g, h1, h2, h3, _⟩ := hex_telegram uninit file _ hl (by simp) hx hf
  obtain ⟨name, x, m, e1, e2, e3, e4⟩ := toolXml_document junk0 junk g c a p h3 hdir h12 hl.2 h hh rs ht units hu hs
  refine ⟨name, e1, ?_⟩
  unfold parseHexTool
  rw [h1, ok_bind]
  simp only
  rw [h2, ok_bind]
  simp only
  rw [if_neg (by decide), if_neg (by decide), e2, ok_bind]
  simp only
  rw [if_neg (by decide), e3, ok_bind]
  show (cstr m >>= _) = _
  rw [e4, ok_bind, List.nil_append]

/-- C98 (likewise): `mbus_parse` on a file with the bytes of a telegram of at most 256 bytes prints the dump of the telegram and then the
document.  Missing: longer telegrams (C96), too long texts. -/
theorem C98_binary_partial (dump : Buf 256) (junk0 : Nat → Byte) (junk : Nat → Nat → Byte)
    (c a : Byte) (p : List Byte) (hl : Spec.Telegram.Legal (.data c a 0x72 p)) (h256 : (Spec.Telegram.data c a 0x72 p).wire.length ≤ 256)
    (hdir : c &&& 0x40 = 0) (h12 : 12 ≤ p.length)
    (h : VarHeader) (hh : HeaderIs h p) (rs : List Rec) (ht : Tiles (p.drop 12) rs) (units : List (List Byte)) (hu : units.length = rs.length)
    (hs : ∀ it ∈ (rs.map mkRec).zip (units.map (·, none)), Showable it) :
    ∃ name, productName h = .ok name ∧ parseTool dump junk0 junk false (Spec.Telegram.data c a 0x72 p).wire =
      .ok (0, telegramLine (.data c a 0x72 p) ++ [10] ++
        document (slaveGroup h name (mediumLookup h.medium) :: recordGroups none 0 ((rs.map mkRec).zip (units.map (·, none))))) := by
  obtain ⟨g, h1, h3, h4⟩ := parsed_telegram Frame.zero _ hl (by simp)
  obtain ⟨name, x, m, e1, e2, e3, e4⟩ := toolXml_document junk0 junk g c a p h3 hdir h12 hl.2 h hh rs ht units hu hs
  refine ⟨name, e1, ?_⟩
  obtain ⟨fs, p1, _⟩ := C96_frame_print_partial dump [g] [.data c a 0x72 p] (by simp) (.cons ⟨hl, h3, h4, h256⟩ .nil)
  unfold parseTool
  generalize hw : (Spec.Telegram.data c a 0x72 p).wire = w at *
  have hmin : min w.length 1024 = w.length := by omega
  rw [List.take_of_length_le (show w.length ≤ 1024 by omega), hmin, parse_take _ _ _ (by simp), List.take_left' rfl, h1, ok_bind]
  simp only
  rw [e2, ok_bind]
  simp only
  rw [p1, ok_bind]
  simp only
  rw [e3, ok_bind]
  show (cstr m >>= _) = _
  rw [e4, ok_bind]
  simp [unlines]

/-- C98: for every file that is a hexadecimal text, `mbus_parse_hex` reports success only after printing the XML text of a telegram whose bytes the
file contains; what is not a telegram gives exit status 1 and no output; a telegram whose data are refused gives exit status 1 and its dump. -/
theorem C98_outcome (uninit : Buf 4096) (dump : Buf 256) (junk0 : Nat → Byte) (junk : Nat → Nat → Byte) (normalized : Bool) (file bs : List Byte)
    (hx : HexText file bs) (hf : file.length ≤ 4096) (hne : bs.head? ≠ some 0xE5) (code : Int) (out : List Byte)
    (h : parseHexTool uninit dump junk0 junk normalized file = .ok (code, out)) :
    ((¬ ∃ t : Spec.Telegram, t.Legal ∧ t ≠ .ack ∧ bs = t.wire) ∧ code = 1 ∧ out = []) ∨
    ∃ (t : Spec.Telegram) (g : Frame) (rc : Int) (x : FrameData), t.Legal ∧ bs = t.wire ∧ Carries g t ∧ frameDataParse g FrameData.new = .ok (rc, x) ∧
      ((rc ≠ 0 ∧ code = 1 ∧ (t.wire.length ≤ 256 → out = telegramLine t ++ [10])) ∨
       (rc = 0 ∧ code = 1 ∧ out = [] ∧ toolXml junk0 junk normalized x = .ok none) ∨
       (rc = 0 ∧ code = 0 ∧ ∃ m, toolXml junk0 junk normalized x = .ok (some m) ∧ cstr m = .ok out)) := by
  by_cases hq : ∃ t : Spec.Telegram, t.Legal ∧ t ≠ .ack ∧ bs = t.wire
  · right
    obtain ⟨t, hl, ha, rfl⟩ := hq
    obtain ⟨d, g, h1, h2, h3, h4⟩ := hex_telegram uninit file _ hl ha hx hf
    unfold parseHexTool at h
    rw [h1, ok_bind] at h
    simp only at h
    rw [h2, ok_bind] at h
    simp only at h
    rw [if_neg (by decide), if_neg (by decide)] at h
    obtain ⟨⟨rc, x⟩, e1, h⟩ := bind_eq_ok.mp h
    simp only at h
    refine ⟨t, g, rc, x, hl, rfl, h3, e1, ?_⟩
    by_cases hrc : rc ≠ 0
    · rw [if_pos hrc] at h
      obtain ⟨⟨r, tt, fs⟩, e2, h⟩ := bind_eq_ok.mp h
      simp only at h
      cases h
      refine .inl ⟨hrc, rfl, fun h256 => ?_⟩
      obtain ⟨fs', p1, _⟩ := C96_frame_print_partial dump [g] [t] (by simp) (.cons ⟨hl, h3, h4, h256⟩ .nil)
      rw [p1] at e2
      cases e2
      simp [unlines]
    · rw [if_neg hrc] at h
      have hrc : rc = 0 := Decidable.byContradiction hrc
      obtain ⟨m, e2, h⟩ := bind_eq_ok.mp h
      cases m with
      | none =>
        cases h
        exact .inr (.inl ⟨hrc, rfl, rfl, e2⟩)
      | some m =>
        obtain ⟨tt, e3, h⟩ := bind_eq_ok.mp h
        cases h
        exact .inr (.inr ⟨hrc, rfl, m, e2, by rw [List.nil_append]; exact e3⟩)
  · left
    refine ⟨hq, ?_⟩
    obtain ⟨d, h1, h2⟩ := rawRead_text uninit file bs hx hf
    have hlen : bs.length ≤ d.length := by
      have := congrArg List.length h2
      simp at this
      omega
    obtain ⟨g, k1, k2⟩ := parse_code Frame.zero bs
    unfold parseHexTool at h
    rw [h1, ok_bind] at h
    simp only at h
    rw [parse_take _ _ _ hlen, h2, k1, ok_bind] at h
    simp only at h
    have hc : Mbus.code bs ≠ 0 := by
      intro h0
      rcases k2 h0 with ⟨e, _⟩ | ⟨t, e1, e2, e3, _⟩
      · exact hne e
      · exact hq ⟨t, e2, e1, e3⟩
    by_cases hneg : Mbus.code bs < 0
    · rw [if_pos hneg] at h
      cases h
      exact ⟨rfl, rfl⟩
    · rw [if_neg hneg, if_pos (by generalize Mbus.code bs = z at *; omega)] at h
      cases h
      exact ⟨rfl, rfl⟩

/-- a telegram whose second record is cut off -/
def cutTelegram : Spec.Telegram := .data 0x08 1 0x72 (hdr ++ [0x01, 0x13, 5, 0x04, 0x13, 1])

theorem cut_parses : ∃ g x, mbusParse Frame.zero cutTelegram.wire cutTelegram.wire.length = .ok (0, g) ∧ frameDataParse g FrameData.new = .ok (-1, x) ∧
      x.type = DATA_VARIABLE ∧ x.var.header = hdrHeader ∧ x.var.records = [volumeItem.1] := by
  have h : (match mbusParse Frame.zero cutTelegram.wire cutTelegram.wire.length with
      | .ok (r, g) => match frameDataParse g FrameData.new with
        | .ok (rc, x) => decide (r = 0 ∧ rc = -1 ∧ x.type = DATA_VARIABLE ∧ x.var.header = hdrHeader ∧ x.var.records = [volumeItem.1])
        | .error _ => false
      | .error _ => false) = true := by decide +kernel
  cases h1 : mbusParse Frame.zero cutTelegram.wire cutTelegram.wire.length with
  | error e => rw [h1] at h; simp at h
  | ok q =>
    obtain ⟨r, g⟩ := q
    rw [h1] at h
    simp only at h
    cases h2 : frameDataParse g FrameData.new with
    | error e => rw [h2] at h; simp at h
    | ok q =>
      obtain ⟨rc, x⟩ := q
      rw [h2] at h
      simp only [decide_eq_true_eq] at h
      obtain ⟨rfl, rfl, h3⟩ := h
      exact ⟨g, x, rfl, h2, h3⟩

/-- C98 is false for `mbus_parse`: the data of a telegram whose second record is cut off are refused, but the exit status is 0 and a document with the
first record only is printed (`mbus_parse_hex` refuses the file). -/
theorem C98_binary_violation (dump : Buf 256) (junk0 : Nat → Byte) (junk : Nat → Nat → Byte) :
    (∃ g x, mbusParse Frame.zero cutTelegram.wire cutTelegram.wire.length = .ok (0, g) ∧ frameDataParse g FrameData.new = .ok (-1, x)) ∧
    ∃ name, parseTool dump junk0 junk false cutTelegram.wire =
      .ok (0, telegramLine cutTelegram ++ [10] ++
        document (slaveGroup hdrHeader name (mediumLookup hdrHeader.medium) :: recordGroups none 0 [(volumeItem.1, volumeItem.2.1, none)])) := by
  have hl : cutTelegram.Legal := by decide +kernel
  obtain ⟨g, h1, h3, h4⟩ := parsed_telegram Frame.zero cutTelegram hl (by simp [cutTelegram])
  have hc : ∃ g x, mbusParse Frame.zero cutTelegram.wire cutTelegram.wire.length = .ok (0, g) ∧ frameDataParse g FrameData.new = .ok (-1, x) ∧
      x.type = DATA_VARIABLE ∧ x.var.header = hdrHeader ∧ x.var.records = [volumeItem.1] := cut_parses
  obtain ⟨g', x, k1, k2, k3, k4, k5⟩ := hc
  have hg : g = g' := by rw [h1] at k1; cases k1; rfl
  subst hg
  refine ⟨⟨g, x, h1, k2⟩, ?_⟩
  obtain ⟨m, name, e1, _, e3⟩ := C56_variable_partial junk0 junk hdrHeader [(volumeItem.1, volumeItem.2.1, none)] (by
    intro it hit
    rw [List.mem_singleton.mp hit]
    exact ⟨volume_reads.delivered _ (by simp), ⟨volume_showable.1.1, volume_showable.1.2, volume_showable.1.3⟩, (fun t h => by cases h)⟩) (by decide)
  refine ⟨name, ?_⟩
  have hwf : WellFormedXml (document (slaveGroup hdrHeader name (mediumLookup hdrHeader.medium) :: recordGroups none 0 [(volumeItem.1, volumeItem.2.1, none)])) := by
    apply document_wellFormed
    intro gr hgr
    rcases List.mem_cons.mp hgr with rfl | hgr
    · exact slaveGroup_ok _ _ _
    · exact recordGroups_ok _ _ (by intro it hit t he; rw [List.mem_singleton.mp hit] at he; cases he) _ gr hgr
  have hlen : cutTelegram.wire.length ≤ 256 := by decide +kernel
  obtain ⟨fs, p1, _⟩ := C96_frame_print_partial dump [g] [cutTelegram] (by simp) (.cons ⟨hl, h3, h4, hlen⟩ .nil)
  unfold parseTool
  generalize cutTelegram.wire = w at *
  have hmin : min w.length 1024 = w.length := by omega
  rw [List.take_of_length_le (show w.length ≤ 1024 by omega), hmin, parse_take _ _ _ (by simp), List.take_left' rfl, h1, ok_bind]
  simp only
  rw [k2, ok_bind]
  simp only
  rw [p1, ok_bind]
  have hx : toolXml junk0 junk false x = .ok (some m) := by
    unfold toolXml frameDataXml
    rw [if_neg (by decide), k3, if_neg (by decide), if_neg (by decide), if_pos rfl, k4, k5]
    exact congrArg (· >>= fun m => Except.ok (some m)) e1
  simp only
  rw [hx, ok_bind]
  show (cstr m >>= _) = _
  rw [cstr_document hwf e3, ok_bind]
  simp [unlines]

/-- the hypotheses of C98_hex_partial, on a file with the bytes in hexadecimal, separated by spaces -/
example (uninit : Buf 4096) (dump : Buf 256) (junk0 : Nat → Byte) (junk : Nat → Nat → Byte) :
    ∃ name, productName hdrHeader = .ok name ∧ parseHexTool uninit dump junk0 junk false (hexDump volumeWire.wire) =
      .ok (0, document (slaveGroup hdrHeader name (mediumLookup 7) :: recordGroups none 0 [(volumeItem.1, volumeItem.2.1, none)])) :=
  C98_hex_partial uninit dump junk0 junk (hexDump volumeWire.wire) 0x08 1 (hdr ++ [0x01, 0x13, 5]) ⟨by decide, by decide⟩ (hexText_dump _)
    (by decide +kernel) (by decide) (by decide) hdrHeader (by unfold HeaderIs; decide) [.value 0x01 [] 0x13 [] [] [5]] volume_tiles [cs! "Volume (m m^3)"] rfl
    (by intro it hit; rw [List.mem_singleton.mp hit]; exact ⟨volume_showable.1.1, volume_showable.1.2, volume_showable.1.3⟩)

/-! Direct instances of the theorems above. -/

example (dump : Buf 256) (junk0 : Nat → Byte) (junk : Nat → Nat → Byte) :=
  C98_binary_partial dump junk0 junk 0x08 1 (hdr ++ [0x01, 0x13, 5]) ⟨by decide, by decide⟩ (by decide +kernel) (by decide) (by decide) hdrHeader
    (by unfold HeaderIs; decide) [.value 0x01 [] 0x13 [] [] [5]] volume_tiles [cs! "Volume (m m^3)"] rfl
    (by intro it hit; rw [List.mem_singleton.mp hit]; exact ⟨volume_showable.1.1, volume_showable.1.2, volume_showable.1.3⟩)
example (uninit : Buf 4096) (dump : Buf 256) (junk0 : Nat → Byte) (junk : Nat → Nat → Byte) (code : Int) (out : List Byte)
    (h : parseHexTool uninit dump junk0 junk false (hexDump volumeWire.wire) = .ok (code, out)) :=
  C98_outcome uninit dump junk0 junk false (hexDump volumeWire.wire) volumeWire.wire (hexText_dump _) (by decide +kernel) (by decide +kernel) code out h

end Mbus
