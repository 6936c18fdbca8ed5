import Verif.Lemmas.XmlOverflow
import Verif.Lemmas.XmlForm
import Verif.Lemmas.XmlCalm
/-
Property theorems C56-C58, C76-C80: XML output.  `document`, `slaveGroup`, `recordGroup`, `readoutGroups`, `fixedGroups`,
`errorGroup`, `WellFormedXml` are from Spec/Xml.lean.  A returned buffer `m` holds the text `t` if `t ++ [0] <+: m`.
-/
namespace Mbus
open Spec

theorem Showable.ready {it : Item} (h : Showable it) (hd : Delivered it.1) (hs : StampOk it.2.2) : Ready it := by
  obtain ⟨u, hu⟩ := hd.printable h.storage
  have e : u = it.2.1 := by
    have := hu.unit
    rw [h.unit] at this
    injection this with this
    exact this.symm
  subst e
  exact ⟨hu, hs, h.modest⟩

/-! ### C56 -/

/-- C56, restricted to records whose escaped unit and value have together at most 671 characters (and, as in C33, whose storage
number fits): `mbus_data_variable_xml` never writes outside its buffer and returns the complete document, whatever the number
of records and whatever the buffers contained before. -/
theorem C56_variable_partial (junk0 : Nat → Byte) (junk : Nat → Nat → Byte) (h : VarHeader) (its : List Item)
    (hd : ∀ it ∈ its, Delivered it.1 ∧ Showable it ∧ StampOk it.2.2) (hc : its.length < 2 ^ 31) :
    ∃ m p, variableXml junk0 junk h (its.map fun it => (it.1, it.2.2)) = .ok m ∧ productName h = .ok p ∧
      document (slaveGroup h p (mediumLookup h.medium) :: recordGroups none 0 its) ++ [0] <+: m := by
  obtain ⟨p, hp, _⟩ := productName_plain h
  obtain ⟨m, h1, h2⟩ := variableXml_runs junk0 junk h p hp its (fun it hi => (hd it hi).2.1.ready (hd it hi).1 (hd it hi).2.2) hc
  exact ⟨m, p, h1, hp, h2⟩

/-- C56 for `mbus_frame_xml`, with the same restriction: for every chain of variable-data telegrams the complete document is
returned; nothing is lost. -/
theorem C56_frame_partial (junk0 : Nat → Byte) (junk : Nat → Nat → Byte) (t : Telegram) (ts : List Telegram) (h : VarHeader)
    (its : List Item) (tss : List (List Item)) (hread : Reads t.1 h (its.map (·.1))) (hst : ∀ it ∈ its, it.2.2 = t.2)
    (hi : Pointwise ItemsOf ts tss) (hs : ∀ i ∈ its :: tss, ∀ it ∈ i, Showable it ∧ StampOk it.2.2)
    (hc : total (its :: tss) < 2 ^ 31) (hk : (its :: tss).length < 2 ^ 31) :
    ∃ m p, frameXml junk0 junk t ts = .ok ⟨some m, false, []⟩ ∧ productName h = .ok p ∧
      document (slaveGroup h p (mediumLookup h.medium) :: readoutGroups (its :: tss)) ++ [0] <+: m := by
  obtain ⟨p, hp, _⟩ := productName_plain h
  have hdel : ∀ i ∈ its :: tss, ∀ it ∈ i, Delivered it.1 := by
    intro i hm it hit
    rcases List.mem_cons.mp hm with rfl | hm
    · exact hread.delivered _ (List.mem_map_of_mem hit)
    · have : ∀ {ts : List Telegram} {tss : List (List Item)}, Pointwise ItemsOf ts tss → i ∈ tss → Delivered it.1 := by
        intro ts tss hp
        induction hp with
        | nil => intro h; cases h
        | cons hx _ ih =>
          intro h
          rcases List.mem_cons.mp h with rfl | h
          · obtain ⟨⟨h, hr⟩, _⟩ := hx
            exact hr.delivered _ (List.mem_map_of_mem hit)
          · exact ih h
      exact this hi hm
  obtain ⟨o, h1, h2, h3, m, h4, h5⟩ := frameXml_runs junk0 junk t ts its tss h p hp hread hst hi
    (fun i hm it hit => (hs i hm it hit).1.ready (hdel i hm it hit) (hs i hm it hit).2) hc hk
  refine ⟨m, p, ?_, hp, h5⟩
  rw [h1]
  obtain ⟨_, _, _⟩ := o
  subst h2 h3 h4
  rfl

/-- ... and every ordinary record whose unit label and value contain none of the characters & < > " satisfies the
restriction, as does every record of manufacturer specific data. -/
theorem C56_plain_partial (r : Record) (u : List Byte) (hr : Delivered r) (hu : recordUnit r = .ok u)
    (hp : Special r ∨ (Plain u ∧ Plain (upToNul (shown r)))) : Modest r u := by
  rcases hp with h | ⟨h1, h2⟩
  · exact .inl h
  · by_cases hs : Special r
    · exact .inl hs
    · right
      rw [escape_plain_length _ h1, escape_plain_length _ h2]
      have e1 := hr.shown_short hs
      have e2 := upToNul_length (shown r)
      obtain ⟨⟨c, hc⟩, _⟩ := hr.unit
      obtain ⟨t, ht⟩ := vibUnitText_total r c hc
      have e3 : u = snp 128 (snp 256 t) := by
        unfold recordUnit vibUnitLookup at hu
        rw [ht] at hu
        injection hu with hu
        exact hu.symm
      have e4 : u.length ≤ 127 := by
        rw [e3]
        unfold snp
        simp
        omega
      omega

/-! concrete telegrams -/

/-- The header `hdr` as a structure. -/
def hdrHeader : VarHeader :=
  { idBcd := Buf.of4 0x78 0x56 0x34 0x12, manufacturer := Buf.of2 0x24 0x40, version := 1, medium := 7, accessNo := 0x55, status := 0,
    signature := Buf.of2 0 0 }

theorem hdr_product : productName hdrHeader = .ok [] := by decide +kernel
theorem hdr_medium : mediumLookup hdrHeader.medium = cs! "Water" := by decide +kernel

theorem payload_rsp (ci : Byte) (p : List Byte) (h : p.length ≤ 252) : payload (rsp ci p) = p := by
  unfold payload rsp
  simp only
  rw [List.take_take, Nat.min_eq_left h, List.take_append_of_le_length (by omega), List.take_of_length_le (by omega)]

theorem varHeader_rsp (p : List Byte) : varHeader (rsp 0x72 (hdr ++ p)).data = .ok hdrHeader := by
  rfl

theorem reads_rsp (p : List Byte) (hl : p.length ≤ 240) (rs : List Rec) (ht : Tiles p rs) :
    Reads (rsp 0x72 (hdr ++ p)) hdrHeader (rs.map mkRec) := by
  have hlen : (hdr ++ p).length ≤ 252 := by simp [hdr]; omega
  have hsz : (rsp 0x72 (hdr ++ p)).dataSize = (hdr ++ p).length := rfl
  have h12 : 12 ≤ (rsp 0x72 (hdr ++ p)).dataSize := by rw [hsz]; simp [hdr]
  refine ⟨by rw [hsz]; exact hlen, ?_⟩
  have hdrop : (payload (rsp 0x72 (hdr ++ p))).drop 12 = p := by rw [payload_rsp _ _ hlen]; rfl
  obtain ⟨v, hv, _, hrs, _⟩ := variableParse_complete (rsp 0x72 (hdr ++ p)) FrameData.new.var (by rw [hsz]; exact hlen) h12 rs
    (by rw [hdrop]; exact ht)
  obtain ⟨h, hh, _, he⟩ := variableParse_eq (rsp 0x72 (hdr ++ p)) FrameData.new.var h12
  rw [varHeader_rsp] at hh
  injection hh with hh
  subst hh
  refine ⟨_, (C35_dispatch (rsp 0x72 (hdr ++ p)) FrameData.new (by show (0x08 : Byte) &&& 0x40 = 0; decide)).2.1 rfl (by omega) 0 v hv, rfl, ?_, hrs⟩
  rw [hv] at he
  obtain ⟨rs', _, e⟩ := varLoop_sound _ _ (by rw [hsz]; exact hlen) _ _ _ _ he.symm
  rw [e]
  rfl

/-- A telegram with one volume record of 5 litres. -/
def volumeTelegram : Frame := rsp 0x72 (hdr ++ [0x01, 0x13, 5])
def volumeItem : Item := (mkRec (.value 0x01 [] 0x13 [] [] [5]), cs! "Volume (m m^3)", some (cs! "2020-01-01T00:00:00Z"))

theorem volume_reads : Reads volumeTelegram hdrHeader [volumeItem.1] :=
  reads_rsp [0x01, 0x13, 5] (by decide) [.value 0x01 [] 0x13 [] [] [5]] (.cons (dif := 0x01) (difes := []) (vif := 0x13) (text := []) (vifes := []) (data := [5]) (bs := []) (rs := [])
    ⟨by decide, by decide, by decide, by decide, by decide, by decide, by decide, by decide, by decide,
      by unfold DataFits; rw [if_neg (by decide)]; rfl⟩ .nil)

theorem volume_showable : Showable volumeItem ∧ StampOk volumeItem.2.2 := by
  refine ⟨⟨by decide +kernel, fun _ => ⟨by decide, by decide +kernel⟩, C56_plain_partial _ _ (volume_reads.delivered _ (by simp)) (by decide +kernel) (.inr ?_)⟩, ?_⟩
  · refine ⟨by decide +kernel, ?_⟩
    have : shown volumeItem.1 = fmtInt 5 := rfl
    rw [this, show fmtInt 5 = [53] by simp [fmtInt, decDigits]]
    decide
  · intro t h
    injection h with h
    subst h
    decide

/-- The hypotheses of C56_frame_partial for a readout of two telegrams. -/
example : ∃ m p, frameXml (fun _ => 7) (fun _ _ => 7) (volumeTelegram, volumeItem.2.2) [(volumeTelegram, volumeItem.2.2)] = .ok ⟨some m, false, []⟩ ∧
    productName hdrHeader = .ok p ∧
    document (slaveGroup hdrHeader p (mediumLookup 7) :: readoutGroups [[volumeItem], [volumeItem]]) ++ [0] <+: m :=
  C56_frame_partial _ _ _ _ hdrHeader [volumeItem] [[volumeItem]] volume_reads (by simp)
    (.cons ⟨⟨hdrHeader, volume_reads⟩, by simp⟩ .nil)
    (by
      intro i hi it hit
      have : i = [volumeItem] := by simpa using hi
      subst this
      rw [List.mem_singleton.mp hit]
      exact volume_showable)
    (by decide) (by decide)

/-- One telegram: `mbus_frame_xml` gives what `mbus_data_variable_xml` gives. -/
theorem frameXml_single (junk0 : Nat → Byte) (junk : Nat → Nat → Byte) (f : Frame) (stamp : Option (List Byte)) (h : VarHeader) (rs : List Record)
    (hr : Reads f h rs) : frameXml junk0 junk (f, stamp) [] =
      variableXml junk0 junk h (rs.map (·, stamp)) >>= fun m => .ok ⟨some m, false, []⟩ := by
  obtain ⟨v, hv1, hv, hparse, _⟩ := hr.any FrameData.new
  subst hv1
  subst hv
  unfold frameXml variableXml
  dsimp only
  rw [hparse, ok_bind, if_neg (show ¬ (0 : Int) = -1 by decide), if_neg (show ¬ DATA_VARIABLE = DATA_ERROR by decide),
    if_neg (show ¬ DATA_VARIABLE = DATA_FIXED by decide), if_pos rfl]
  cases (XBuf.put ⟨malloc (scratch junk0 3) 8192, 0⟩ XML_PI) with
  | error e => rfl
  | ok b1 =>
    rw [ok_bind, ok_bind]
    cases b1.put (cs! "<MBusData>\n\n") with
    | error e => rfl
    | ok b2 =>
      rw [ok_bind, ok_bind]
      cases headerXml junk0 v.header with
      | error e => rfl
      | ok t =>
        rw [ok_bind, ok_bind]
        cases b2.put t with
        | error e => rfl
        | ok b3 =>
          rw [ok_bind, ok_bind]
          have e : (if ([] : List Telegram).isEmpty = true then (-1 : Int) else 0) = -1 := rfl
          rw [e]
          cases recordsXml junk (-1) (v.records.map (·, stamp)) 0 b3 with
          | error e => rfl
          | ok q =>
            rw [ok_bind, ok_bind]
            have e2 : int32 (-1 + 1) = .ok 0 := rfl
            dsimp only
            rw [e2, ok_bind]
            unfold chainXml
            cases q.1.put (cs! "</MBusData>\n") with
            | error e => rfl
            | ok b => rfl

/-! The overflow witness. -/

/-- 32 records without data, "flow temperature". -/
def flowRec : Rec := .value 0x00 [] 0x5A [] [] []
def flowItem : Item := (mkRec flowRec, cs! "Flow temperature (1e-1 deg C)", none)
/-- A record with a unit of 45 quotation marks and a text value of 127 quotation marks. -/
def quoteRec : Rec := .value 0x0D [] 0x7C (List.replicate 45 34) [] (127 :: List.replicate 127 34)
/-- A telegram of 252 payload bytes. -/
def overflowTelegram : Frame := rsp 0x72 (hdr ++ ((List.replicate 32 [0x00, 0x5A]).flatten ++ quoteRec.encode))

theorem quote_legal : quoteRec.Legal := by
  refine ⟨by decide, by decide, by decide, by decide, by decide, by decide, by decide, by decide, by decide, ?_⟩
  unfold DataFits
  rw [if_pos (by decide)]
  exact ⟨_, _, rfl, by rw [List.length_replicate]; decide⟩

theorem flow_legal : flowRec.Legal := by
  refine ⟨by decide, by decide, by decide, by decide, by decide, by decide, by decide, by decide, by decide, ?_⟩
  unfold DataFits
  rw [if_neg (by decide)]
  rfl

theorem flow_tiles (n : Nat) {bs : List Byte} {rs : List Rec} (h : Tiles bs rs) :
    Tiles ((List.replicate n [0x00, 0x5A]).flatten ++ bs) (List.replicate n flowRec ++ rs) := by
  induction n with
  | zero => exact h
  | succ n ih =>
    rw [List.replicate_succ, List.replicate_succ, List.flatten_cons, List.append_assoc, List.cons_append]
    exact .cons flow_legal ih

theorem overflow_reads : Reads overflowTelegram hdrHeader (List.replicate 32 (mkRec flowRec) ++ [mkRec quoteRec]) := by
  have := reads_rsp ((List.replicate 32 [0x00, 0x5A]).flatten ++ quoteRec.encode) (by decide +kernel)
    (List.replicate 32 flowRec ++ [quoteRec]) (flow_tiles 32 (by
      have := Tiles.cons quote_legal .nil
      rwa [List.append_nil] at this))
  rwa [List.map_append, List.map_replicate] at this

theorem flow_ready : Ready flowItem := by
  have hd : Delivered flowItem.1 := overflow_reads.delivered _ (by
    rw [List.mem_append]
    exact .inl (List.mem_replicate.mpr ⟨by decide, rfl⟩))
  exact (show Showable flowItem from ⟨by decide +kernel, fun _ => ⟨by decide, by decide +kernel⟩,
    .inr (by decide +kernel)⟩).ready hd (by intro t h; cases h)

theorem quote_printable : Printable (mkRec quoteRec) (List.replicate 45 34) := by
  have hd : Delivered (mkRec quoteRec) := overflow_reads.delivered _ (by simp)
  obtain ⟨u, hu⟩ := hd.printable (fun _ => ⟨by decide, by decide +kernel⟩)
  have e : recordUnit (mkRec quoteRec) = .ok (List.replicate 45 34) := by decide +kernel
  have := hu.unit
  rw [e] at this
  injection this with this
  rwa [← this] at hu

set_option maxRecDepth 8000 in
theorem flow_length (id : Nat) (h : id < 100) : 208 ≤ (recordGroup id none flowItem.1 flowItem.2.1 flowItem.2.2).render.length ∧
    (recordGroup id none flowItem.1 flowItem.2.1 flowItem.2.2).render.length ≤ 209 := by
  have h1 : (dec id).length ≤ 2 := decDigits_length id 2 (by omega) (by omega)
  have h2 : 1 ≤ (dec id).length := by
    unfold dec decDigits
    split <;> simp
  have h3 : recordGroup id none flowItem.1 flowItem.2.1 flowItem.2.2 =
      { name := cs! "DataRecord", attrs := [(cs! "id", dec id)],
        leaves := [(cs! "Function", cs! "Instantaneous value"), (cs! "StorageNumber", cs! "0"), (cs! "Unit", cs! "Flow temperature (1e-1 deg C)"), (cs! "Value", [])] } := by
    have e1 : dec 0 = cs! "0" := by simp [dec, decDigits]
    rw [← e1]
    rfl
  rw [h3]
  generalize dec id = d at *
  simp [Group.render, leaf, attr]
  omega

theorem flow_lengths (n start : Nat) (h : start + n ≤ 100) :
    208 * n ≤ ((recordGroups none start (List.replicate n flowItem)).flatMap Group.render).length ∧
    ((recordGroups none start (List.replicate n flowItem)).flatMap Group.render).length ≤ 209 * n := by
  induction n generalizing start with
  | zero => simp [recordGroups]
  | succ n ih =>
    have e : recordGroups none start (List.replicate (n + 1) flowItem) =
      recordGroup start none flowItem.1 flowItem.2.1 flowItem.2.2 :: recordGroups none (start + 1) (List.replicate n flowItem) := rfl
    rw [e, List.flatMap_cons, List.length_append]
    have h1 := flow_length start (by omega)
    have h2 := ih (start + 1) (by omega)
    omega

theorem escape_quotes (n : Nat) : (escape (List.replicate n 34)).length = 6 * n := by
  induction n with
  | zero => rfl
  | succ n ih =>
    have : escape (List.replicate (n + 1) 34) = cs! "&quot;" ++ escape (List.replicate n 34) := rfl
    rw [this, List.length_append, ih]
    simp
    omega

set_option maxRecDepth 8000 in
theorem hdr_length : (slaveGroup hdrHeader [] (mediumLookup hdrHeader.medium)).render.length = 315 := by
  rw [hdr_medium]
  have e1 : hex (leNat hdrHeader.idBcd.bytes) = cs! "12345678" := by
    have : leNat hdrHeader.idBcd.bytes = 0x12345678 := by decide +kernel
    rw [this]
    simp [hex, hexDigits, hexDigitU]
  have e2 : dec 1 = cs! "1" := by simp [dec, decDigits]
  have e3 : dec 85 = cs! "85" := by simp [dec, decDigits]
  have : slaveGroup hdrHeader [] (cs! "Water") = { name := cs! "SlaveInformation", attrs := [], leaves :=
      [(cs! "Id", hex (leNat hdrHeader.idBcd.bytes)), (cs! "Manufacturer", cs! "PAD"), (cs! "Version", dec 1), (cs! "ProductName", []), (cs! "Medium", cs! "Water"),
       (cs! "AccessNumber", dec 85), (cs! "Status", cs! "00"), (cs! "Signature", cs! "0000")] } := rfl
  rw [this, e1, e2, e3]
  rfl

set_option maxRecDepth 8000 in
/-- C56 is false: the XML of this single telegram is written beyond the end of the 8192-byte buffer, whatever the memory contained. -/
theorem C56_overflow_violation (junk0 : Nat → Byte) (junk : Nat → Nat → Byte) :
    ∃ i, frameXml junk0 junk (overflowTelegram, none) [] = .error (.oobWrite 8192 i) := by
  have hsh : upToNul (shown (mkRec quoteRec)) = List.replicate 127 34 := by decide +kernel
  have hlen : (document (slaveGroup hdrHeader [] (mediumLookup hdrHeader.medium) :: recordGroups none 0 (List.replicate 32 flowItem))).length =
      383 + ((recordGroups none 0 (List.replicate 32 flowItem)).flatMap Group.render).length := by
    unfold document
    rw [List.flatMap_cons, List.length_append, List.length_append, List.length_append, hdr_length]
    have : (cs! "<?xml version=\"1.0\" encoding=\"ISO-8859-1\"?>\n<MBusData>\n\n").length = 56 := rfl
    have : (cs! "</MBusData>\n").length = 12 := rfl
    omega
  have hb := flow_lengths 32 0 (by decide)
  obtain ⟨i, hi⟩ := overflow junk0 junk hdrHeader [] hdr_product (List.replicate 32 flowItem)
    (fun it hit => by rw [(List.mem_replicate.mp hit).2]; exact flow_ready) (by simp) (mkRec quoteRec) (List.replicate 45 34) quote_printable
    (by omega) (by
      intro ue ve h1 h2
      have e1 : ue.length = 270 := by rw [h1.whole (by rw [escape_quotes]; decide), escape_quotes]
      rw [hsh] at h2
      have e2 : 762 ≤ ve.length := h2.long (by rw [escape_quotes]; decide)
      have e3 : (rawGroup (List.replicate 32 flowItem).length none (mkRec quoteRec) ue ve none).render.length ≥ 1032 + 170 := by
        rw [List.length_replicate]
        have : rawGroup 32 none (mkRec quoteRec) ue ve none = { name := cs! "DataRecord", attrs := [(cs! "id", dec 32)], leaves :=
          [(cs! "Function", cs! "Instantaneous value"), (cs! "StorageNumber", dec 0), (cs! "Unit", ue), (cs! "Value", ve)] } := rfl
        rw [this]
        generalize dec 32 = d
        generalize dec 0 = d'
        simp [Group.render, leaf, attr]
        omega
      omega)
  refine ⟨i, ?_⟩
  rw [frameXml_single junk0 junk _ none _ _ overflow_reads]
  rw [List.map_replicate] at hi
  rw [List.map_append, List.map_replicate]
  have e : variableXml junk0 junk hdrHeader (List.replicate 32 (mkRec flowRec, none) ++ [(mkRec quoteRec, none)]) = .error (.oobWrite 8192 i) := hi
  show variableXml junk0 junk hdrHeader (List.replicate 32 (mkRec flowRec, none) ++ [(mkRec quoteRec, none)]) >>= _ = _
  rw [e]
  rfl

/-- A value of 128 quotation marks; and one of 127. -/
def longRec (n : Nat) : Rec := .value 0x0D [] 0x13 [] [] (UInt8.ofNat n :: List.replicate n 34)

theorem long_legal (n : Nat) (h : n ≤ 128) : (longRec n).Legal := by
  refine ⟨by decide, by decide, by decide, by decide, by decide, by decide, by decide, by decide, by decide, ?_⟩
  unfold DataFits
  rw [if_pos (by decide)]
  refine ⟨_, _, rfl, ?_⟩
  rw [List.length_replicate]
  unfold lvarBytes
  rw [UInt8.toNat_ofNat_of_lt' (show n < 256 by omega)]
  dsimp only
  rw [if_pos (by omega)]

set_option maxRecDepth 8000 in
/-- C56 ("never truncate") is false: a text value of 128 quotation marks is printed as one of 127. -/
theorem C56_truncate_violation (junk0 : Nat → Byte) (junk : Nat → Nat → Byte) :
    ∃ m, frameXml junk0 junk (rsp 0x72 (hdr ++ (longRec 128).encode), none) [] = .ok ⟨some m, false, []⟩ ∧
      document [slaveGroup hdrHeader [] (cs! "Water"), recordGroup 0 none (mkRec (longRec 127)) (cs! "Volume (m m^3)") none] ++ [0] <+: m := by
  have ht : Tiles (longRec 128).encode [longRec 128] := by
    have := Tiles.cons (long_legal 128 (by decide)) .nil
    rwa [List.append_nil] at this
  have hr := reads_rsp (longRec 128).encode (by decide +kernel) _ ht
  have hd : Delivered (mkRec (longRec 128)) := hr.delivered _ (by simp)
  obtain ⟨u, hu⟩ := hd.printable (fun _ => ⟨by decide, by decide +kernel⟩)
  have e0 : recordUnit (mkRec (longRec 128)) = .ok (cs! "Volume (m m^3)") := by decide +kernel
  have e1 : u = cs! "Volume (m m^3)" := by
    have := hu.unit
    rw [e0] at this
    injection this with this
    exact this.symm
  subst e1
  obtain ⟨ue, ve, h1, h2, h3⟩ := recordXml_runs (junk 0) _ _ hu none (by intro t h; cases h) 0 (by decide) none (by simp)
  have hue : ue = cs! "Volume (m m^3)" := h1.whole (by decide)
  have hve : ve = escape (List.replicate 127 34) := by
    have e : upToNul (shown (mkRec (longRec 128))) = List.replicate 128 34 := by decide +kernel
    rw [e] at h2
    obtain ⟨k, k1, k2, k3, k4, _⟩ := h2
    rw [List.take_replicate] at k2
    rw [List.length_replicate] at k1 k4
    rw [k2, escape_quotes] at k3
    rw [k2]
    by_cases hk : k < 128
    · have := k4 hk
      rw [k2, escape_quotes] at this
      rw [show min k 128 = 127 by omega]
    · omega
  have hg : rawGroup 0 none (mkRec (longRec 128)) ue ve none = recordGroup 0 none (mkRec (longRec 127)) (cs! "Volume (m m^3)") none := by
    rw [recordGroup_raw, hue, hve]
    have e : upToNul (shown (mkRec (longRec 127))) = List.replicate 127 34 := by decide +kernel
    rw [e]
    rfl
  have hlen := rawGroup_length 0 none (by decide) (by simp) (mkRec (longRec 128)) ue ve none (by intro t h; cases h) hu.storage
  rw [if_neg (by decide)] at hlen
  have hl1 : ue.length = 14 := by rw [hue]; rfl
  have hl2 : ve.length = 762 := by rw [hve, escape_quotes]
  rw [hg] at h3 hlen
  have : Runs (variableXml junk0 junk hdrHeader [(mkRec (longRec 128), none)]) (fun m =>
      document [slaveGroup hdrHeader [] (cs! "Water"), recordGroup 0 none (mkRec (longRec 127)) (cs! "Volume (m m^3)") none] ++ [0] <+: m) := by
    unfold variableXml
    refine start_runs _ _ hdrHeader [] hdr_product _ _ fun b hb => ?_
    obtain ⟨n, g1, g2, g3⟩ := hb
    obtain ⟨n', g4, g5, g6⟩ := grow_text (scratch (junk 0) 3) g3 g1 (by omega)
    rw [hdr_medium] at g5 g6
    have h3' : recordXml (junk 0) (mkRec (longRec 128)) none 0 (-1) = .ok (recordGroup 0 none (mkRec (longRec 127)) (cs! "Volume (m m^3)") none).render := h3
    have := hdr_length
    rw [hdr_medium] at this
    have hq : ∀ T : List Byte, T.length = 371 → Text (b.grow (scratch (junk 0) 3)) n' T →
        Runs (recordsXml junk (-1) [(mkRec (longRec 128), none)] 0 b) (fun q => Roomy q.1
          (T ++ (recordGroup 0 none (mkRec (longRec 127)) (cs! "Volume (m m^3)") none).render)) := by
      intro T hT g6
      simp only [recordsXml, Int.toNat_zero]
      rw [h3', ok_bind]
      refine put_bind g6.holds _ (by omega) fun b' hb' => ?_
      have : int32 (0 + 1) = .ok 1 := rfl
      rw [this, ok_bind]
      exact .ok ⟨n', g4, by simp only [List.length_append]; omega, hb'⟩
    have hq := hq _ (by rw [List.length_append, this]; rfl) g6
    refine hq.bind fun q hq => (close_runs hq).bind fun b'' hb'' => .ok ?_
    simpa [document] using hb''
  obtain ⟨m, hm1, hm2⟩ := this
  refine ⟨m, ?_, hm2⟩
  rw [frameXml_single junk0 junk _ none _ _ hr]
  show variableXml junk0 junk hdrHeader [(mkRec (longRec 128), none)] >>= _ = _
  rw [hm1]
  rfl

/-! ### C57 -/

/-- C57, restricted to chains whose second and later telegrams are not fixed-data telegrams (CI 0x73) or application errors
(CI 0x70): no freed record is touched, whatever else the telegrams contain. -/
theorem C57_partial (junk0 : Nat → Byte) (junk : Nat → Nat → Byte) (t : Telegram) (ts : List Telegram) (ht : t.1.dataSize ≤ 252)
    (h : ∀ t ∈ ts, t.1.dataSize ≤ 252 ∧ t.1.ci ≠ 0x70 ∧ t.1.ci ≠ 0x73) : frameXml junk0 junk t ts ≠ .error .useAfterFree :=
  calm_frame junk0 junk t ts ht h (fun e => (errorXml_runs junk0 e).calm) (fun x => (fixedXml_runs junk0 x).calm)

example : (∀ t ∈ [(volumeTelegram, (none : Option (List Byte))), (overflowTelegram, none)], t.1.dataSize ≤ 252 ∧ t.1.ci ≠ 0x70 ∧ t.1.ci ≠ 0x73) := by
  decide +kernel

/-- C57 is false: whenever a telegram with records (that can be printed) is followed by an application error, the freed records of
the first telegram are printed again. -/
theorem C57_error_violation (junk0 : Nat → Byte) (junk : Nat → Nat → Byte) (t t2 : Telegram) (ts : List Telegram) (h : VarHeader)
    (its : List Item) (hread : Reads t.1 h (its.map (·.1))) (hst : ∀ it ∈ its, it.2.2 = t.2) (hne : its ≠ [])
    (hs : ∀ it ∈ its, Showable it ∧ StampOk it.2.2) (hc : its.length < 2 ^ 31) (hd : t2.1.control &&& 0x40 = 0) (hci : t2.1.ci = 0x70) :
    frameXml junk0 junk t (t2 :: ts) = .error .useAfterFree := by
  obtain ⟨x, b, e, _⟩ := frameXml_first junk0 junk t t2 ts its h hread hst
    (fun it hi => (hs it hi).1.ready (hread.delivered _ (List.mem_map_of_mem hi)) (hs it hi).2) hc
  rw [e]
  obtain ⟨f2, s2⟩ := t2
  unfold chainXml
  rw [frameDataParse_error f2 x hd hci, ok_bind]
  have : decide (its.map (·.1) ≠ []) = true := by simpa using hne
  rw [this]
  rfl

/-- ... for example a volume telegram followed by "application error 3". -/
theorem C57_violation (junk0 : Nat → Byte) (junk : Nat → Nat → Byte) :
    frameXml junk0 junk (volumeTelegram, volumeItem.2.2) [(rsp 0x70 [3], none)] = .error .useAfterFree :=
  C57_error_violation junk0 junk _ _ _ hdrHeader [volumeItem] volume_reads (by simp) (by simp)
    (by intro it hi; rw [List.mem_singleton.mp hi]; exact volume_showable) (by decide) rfl rfl

/-! ### C58 -/

theorem recordGroups_zip (frame : Option Nat) (its : List Item) (start : Nat) :
    recordGroups frame start its = (its.zipIdx start).map fun p => recordGroup p.2 frame p.1.1 p.1.2.1 p.1.2.2 := by
  induction its generalizing start with
  | nil => rfl
  | cons it its ih =>
    obtain ⟨r, u, s⟩ := it
    simp only [recordGroups, List.zipIdx_cons, List.map_cons, ih]

theorem zipIdx_map_pair {α β : Type} (l : List α) (k : β) (start : Nat) :
    (l.map fun a => (k, a)).zipIdx start = (l.zipIdx start).map fun p => ((k, p.1), p.2) := by
  induction l generalizing start with
  | nil => rfl
  | cons a l ih => simp [List.zipIdx_cons, ih]

theorem telegramGroups_zip (tss : List (List Item)) (start k : Nat) :
    telegramGroups start k tss =
      (((tss.zipIdx k).flatMap fun p => p.1.map fun it => (p.2, it)).zipIdx start).map (numberedGroup true) := by
  induction tss generalizing start k with
  | nil => rfl
  | cons its tss ih =>
    simp only [telegramGroups, List.zipIdx_cons, List.flatMap_cons, List.zipIdx_append, List.map_append, List.length_map, ih]
    congr 1
    rw [recordGroups_zip, zipIdx_map_pair, List.map_map]
    rfl

theorem readoutGroups_numbered (tss : List (List Item)) :
    readoutGroups tss = ((numbered tss).zipIdx).map (numberedGroup (tss.length != 1)) := by
  unfold readoutGroups
  split
  · rename_i its
    rw [recordGroups_zip]
    have : numbered [its] = its.map fun a => (0, a) := by simp [numbered]
    rw [this, zipIdx_map_pair, List.map_map]
    rfl
  · rename_i h
    rw [telegramGroups_zip]
    have : (tss.length != 1) = true := by
      rw [bne_iff_ne]
      intro e
      obtain ⟨a, rfl⟩ := List.length_eq_one_iff.mp e
      exact h a rfl
    rw [this]
    rfl

/-- C58, with the restrictions of C56: the XML of a chain of variable-data telegrams is the slave information followed by exactly
one DataRecord per parsed record, in order; record number i has id="i", counted across telegrams, and frame="k" (k the number of
its telegram) iff there is more than one telegram. -/
theorem C58_partial (junk0 : Nat → Byte) (junk : Nat → Nat → Byte) (t : Telegram) (ts : List Telegram) (h : VarHeader)
    (its : List Item) (tss : List (List Item)) (hread : Reads t.1 h (its.map (·.1))) (hst : ∀ it ∈ its, it.2.2 = t.2)
    (hi : Pointwise ItemsOf ts tss) (hs : ∀ i ∈ its :: tss, ∀ it ∈ i, Showable it ∧ StampOk it.2.2)
    (hc : total (its :: tss) < 2 ^ 31) (hk : (its :: tss).length < 2 ^ 31) :
    ∃ m p gs, frameXml junk0 junk t ts = .ok ⟨some m, false, []⟩ ∧
      document (slaveGroup h p (mediumLookup h.medium) :: gs) ++ [0] <+: m ∧
      gs.map (·.name) = (numbered (its :: tss)).map (fun _ => cs! "DataRecord") ∧
      gs.map (·.attrs) = (numbered (its :: tss)).zipIdx.map (fun q =>
        (cs! "id", dec q.2) :: (if ts = [] then [] else [(cs! "frame", dec q.1.1)])) ∧
      gs = (numbered (its :: tss)).zipIdx.map (numberedGroup (decide (ts ≠ []))) := by
  obtain ⟨m, p, h1, h2, h3⟩ := C56_frame_partial junk0 junk t ts h its tss hread hst hi hs hc hk
  have e : ((its :: tss).length != 1) = decide (ts ≠ []) := by
    cases hi <;> simp
  rw [readoutGroups_numbered, e] at h3
  refine ⟨m, p, _, h1, h3, ?_, ?_, rfl⟩
  · rw [List.map_map]
    have : ∀ (l : List (Nat × Item)) (k : Nat), (l.zipIdx k).map (Group.name ∘ numberedGroup (decide (ts ≠ []))) = l.map fun _ => cs! "DataRecord" := by
      intro l
      induction l with
      | nil => intro k; rfl
      | cons a l ih =>
        intro k
        rw [List.zipIdx_cons, List.map_cons, List.map_cons, ih]
        rfl
    exact this _ _
  · rw [List.map_map]
    apply List.map_congr_left
    intro q _
    by_cases hts : ts = []
    · subst hts
      rfl
    · simp [numberedGroup, recordGroup, hts]

/-! ### C76, C77 -/

/-- C76, with the restrictions of C56 (time stamps being character data): the XML of a chain of variable-data telegrams is a
well-formed XML document. -/
theorem C76_wellFormed_partial (junk0 : Nat → Byte) (junk : Nat → Nat → Byte) (t : Telegram) (ts : List Telegram) (h : VarHeader)
    (its : List Item) (tss : List (List Item)) (hread : Reads t.1 h (its.map (·.1))) (hst : ∀ it ∈ its, it.2.2 = t.2)
    (hi : Pointwise ItemsOf ts tss) (hs : ∀ i ∈ its :: tss, ∀ it ∈ i, Showable it ∧ StampOk it.2.2)
    (hx : ∀ i ∈ its :: tss, ∀ it ∈ i, ∀ s, it.2.2 = some s → CharData s)
    (hc : total (its :: tss) < 2 ^ 31) (hk : (its :: tss).length < 2 ^ 31) :
    ∃ m text, frameXml junk0 junk t ts = .ok ⟨some m, false, []⟩ ∧ text ++ [0] <+: m ∧ WellFormedXml text := by
  obtain ⟨m, p, h1, h2, h3⟩ := C56_frame_partial junk0 junk t ts h its tss hread hst hi hs hc hk
  refine ⟨m, _, h1, h3, document_wellFormed _ ?_⟩
  intro g hg
  rcases List.mem_cons.mp hg with rfl | hg
  · exact slaveGroup_ok _ _ _
  · exact readoutGroups_ok _ hx g hg

/-- C77: the XML of a fixed-data telegram is complete and well-formed, for every content. -/
theorem C77_fixed (junk : Nat → Byte) (x : FixedData) : ∃ m text, fixedXml junk x = .ok m ∧ text ++ [0] <+: m ∧ WellFormedXml text ∧
    text = document (fixedGroups x (fixedMedium x) (fixedFunction x.status.toNat) (fixedUnit x.cnt1Type.toNat) (fixedUnit x.cnt2Type.toNat)) := by
  obtain ⟨m, h1, h2⟩ := fixedXml_runs junk x
  exact ⟨m, _, h1, h2, document_wellFormed _ (fixedGroups_ok _ _ _ _ _), rfl⟩

/-- C77: likewise for an application error. -/
theorem C77_error (junk : Nat → Byte) (e : Int) : ∃ m text, errorXml junk e = .ok m ∧ text ++ [0] <+: m ∧ WellFormedXml text ∧
    text = document [errorGroup (errorLookup e)] := by
  obtain ⟨m, h1, h2⟩ := errorXml_runs junk e
  refine ⟨m, _, h1, h2, document_wellFormed _ ?_, rfl⟩
  intro g hg
  rw [List.mem_singleton.mp hg]
  exact errorGroup_ok _

/-- C77: `mbus_frame_xml` of a readout that starts with such a telegram gives that document, whatever follows. -/
theorem C77_frame (junk0 : Nat → Byte) (junk : Nat → Nat → Byte) (t : Telegram) (ts : List Telegram) (hd : t.1.control &&& 0x40 = 0) :
    (t.1.ci = 0x70 → ∃ m, frameXml junk0 junk t ts = .ok ⟨some m, false, []⟩ ∧
      document [errorGroup (errorLookup ((payload t.1).headD 0).toNat)] ++ [0] <+: m) ∧
    (t.1.ci = 0x73 → t.1.dataSize = 16 → ∃ x m, fixedParse t.1 FrameData.new.fix = .ok (0, x) ∧ frameXml junk0 junk t ts = .ok ⟨some m, false, []⟩ ∧
      document (fixedGroups x (fixedMedium x) (fixedFunction x.status.toNat) (fixedUnit x.cnt1Type.toNat) (fixedUnit x.cnt2Type.toNat)) ++ [0] <+: m) := by
  constructor
  · intro hc
    obtain ⟨m, h1, h2⟩ := errorXml_runs junk0 ((payload t.1).headD 0).toNat
    refine ⟨m, ?_, h2⟩
    unfold frameXml
    rw [frameDataParse_error t.1 _ hd hc, ok_bind]
    dsimp only
    rw [if_neg (show ¬ (0 : Int) = -1 by decide), if_pos rfl]
    show errorXml junk0 (((payload t.1).headD 0).toNat : Int) >>= _ = _
    rw [h1]
    rfl
  · intro hc h16
    obtain ⟨x, hx, _⟩ := (C34_fixed_iff t.1 FrameData.new.fix).1 h16
    obtain ⟨m, h1, h2⟩ := fixedXml_runs junk0 x
    refine ⟨x, m, hx, ?_, h2⟩
    unfold frameXml
    rw [(frameDataParse_cases t.1 _).2.1 hd hc, if_neg (by omega), hx, ok_bind, ok_bind]
    dsimp only
    rw [if_neg (show ¬ (0 : Int) = -1 by decide), if_neg (show ¬ DATA_FIXED = DATA_ERROR by decide), if_pos rfl]
    show fixedXml junk0 x >>= _ = _
    rw [h1]
    rfl

example : (rsp 0x70 [8]).control &&& 0x40 = 0 ∧ (rsp 0x70 [8]).ci = 0x70 ∧ errorLookup 8 = cs! "Application busy" := by
  decide +kernel

/-! ### C78 -/

/-- C78, restricted to calls that return a document: `mbus_frame_xml` frees everything else it allocated. -/
theorem C78_returned_partial (junk0 : Nat → Byte) (junk : Nat → Nat → Byte) (t : Telegram) (ts : List Telegram) (o : XmlOut)
    (h : frameXml junk0 junk t ts = .ok o) (ht : o.text ≠ none) : o.lostBuffer = false ∧ o.lostRecords = [] :=
  frame_kept junk0 junk t ts o h ht

/-- C78 is false: if a later telegram is refused, NULL is returned and the text buffer is lost. -/
theorem C78_buffer_violation (junk0 : Nat → Byte) (junk : Nat → Nat → Byte) (t t2 : Telegram) (ts : List Telegram) (h : VarHeader)
    (its : List Item) (hread : Reads t.1 h (its.map (·.1))) (hst : ∀ it ∈ its, it.2.2 = t.2)
    (hs : ∀ it ∈ its, Showable it ∧ StampOk it.2.2) (hc : its.length < 2 ^ 31)
    (hbad : t2.1.ci ≠ 0x70 ∧ t2.1.ci ≠ 0x72 ∧ t2.1.ci ≠ 0x73) :
    frameXml junk0 junk t (t2 :: ts) = .ok ⟨none, true, []⟩ := by
  obtain ⟨x, b, e, hx⟩ := frameXml_first junk0 junk t t2 ts its h hread hst
    (fun it hi => (hs it hi).1.ready (hread.delivered _ (List.mem_map_of_mem hi)) (hs it hi).2) hc
  rw [e]
  obtain ⟨f2, s2⟩ := t2
  unfold chainXml
  rw [C35_refuse f2 x (.inr (by simpa using hbad)), ok_bind]
  dsimp only
  rw [if_pos rfl, hx]

/-- ... for example a volume telegram followed by one with CI field 0x00. -/
theorem C78_violation (junk0 : Nat → Byte) (junk : Nat → Nat → Byte) :
    frameXml junk0 junk (volumeTelegram, volumeItem.2.2) [(rsp 0x00 [], none)] = .ok ⟨none, true, []⟩ :=
  C78_buffer_violation junk0 junk _ _ _ hdrHeader [volumeItem] volume_reads (by simp)
    (by intro it hi; rw [List.mem_singleton.mp hi]; exact volume_showable) (by decide) (by decide)

/-- C78 is false: records read before a defect in the first telegram are lost. -/
theorem C78_records_violation (junk0 : Nat → Byte) (junk : Nat → Nat → Byte) :
    ∃ rs, frameXml junk0 junk (rsp 0x72 (hdr ++ [0x01, 0x13, 5, 0x04, 0x13, 1]), none) [] = .ok ⟨none, false, rs⟩ ∧ rs.length = 1 := by
  have h : ∃ x, frameDataParse (rsp 0x72 (hdr ++ [0x01, 0x13, 5, 0x04, 0x13, 1])) FrameData.new = .ok (-1, x) ∧ x.var.records.length = 1 := by
    refine ⟨_, rfl, ?_⟩
    decide +kernel
  obtain ⟨x, h1, h2⟩ := h
  refine ⟨x.var.records, ?_, h2⟩
  unfold frameXml
  rw [h1, ok_bind]
  rfl

/-! ### C80 -/

/-- C80: for a readout of one telegram with variable data, `mbus_frame_xml` prints what parsing it and calling
`mbus_frame_data_xml` prints. -/
theorem C80_single (junk0 : Nat → Byte) (junk : Nat → Nat → Byte) (f : Frame) (stamp : Option (List Byte)) (x : FrameData)
    (hs : f.dataSize ≤ 252) (hp : frameDataParse f FrameData.new = .ok (0, x)) (ht : x.type = DATA_VARIABLE) (m : List Byte) :
    frameXml junk0 junk (f, stamp) [] = .ok ⟨some m, false, []⟩ ↔
      frameDataXml junk0 junk x (List.replicate x.var.records.length stamp) = .ok (some m) := by
  rw [frameXml_single junk0 junk f stamp x.var.header x.var.records ⟨hs, x, hp, ht, rfl, rfl⟩]
  unfold frameDataXml
  rw [if_neg (by rw [ht]; decide), if_neg (by rw [ht]; decide), if_pos ht]
  have : x.var.records.zip (List.replicate x.var.records.length stamp) = x.var.records.map (·, stamp) := by
    induction x.var.records with
    | nil => rfl
    | cons a l ih => simp [List.replicate_succ, ih]
  rw [this]
  cases variableXml junk0 junk x.var.header (x.var.records.map (·, stamp)) with
  | error e => simp only [error_bind]; constructor <;> intro h <;> cases h
  | ok m' =>
    simp only [ok_bind]
    constructor <;> intro h <;> (injection h with h; injection h with h; first | rw [h] | (subst h; rfl))

/-- C80: the same for an application error and for fixed-length data. -/
theorem C80_single_other (junk0 : Nat → Byte) (junk : Nat → Nat → Byte) (f : Frame) (stamp : Option (List Byte)) (x : FrameData)
    (hp : frameDataParse f FrameData.new = .ok (0, x)) (ht : x.type = DATA_ERROR ∨ x.type = DATA_FIXED) :
    ∃ m, frameXml junk0 junk (f, stamp) [] = .ok ⟨some m, false, []⟩ ∧ ∀ stamps, frameDataXml junk0 junk x stamps = .ok (some m) := by
  rcases ht with ht | ht
  · obtain ⟨m, h1, _⟩ := errorXml_runs junk0 x.error
    refine ⟨m, ?_, fun stamps => ?_⟩
    · unfold frameXml
      rw [hp, ok_bind]
      dsimp only
      rw [if_neg (show ¬ (0 : Int) = -1 by decide), if_pos ht, h1]
      rfl
    · unfold frameDataXml
      rw [if_pos ht, h1]
      rfl
  · obtain ⟨m, h1, _⟩ := fixedXml_runs junk0 x.fix
    refine ⟨m, ?_, fun stamps => ?_⟩
    · unfold frameXml
      rw [hp, ok_bind]
      dsimp only
      rw [if_neg (show ¬ (0 : Int) = -1 by decide), if_neg (by rw [ht]; decide), if_pos ht, h1]
      rfl
    · unfold frameDataXml
      rw [if_neg (by rw [ht]; decide), if_pos ht, h1]
      rfl

/-- an application error "Application busy" -/
example : ∃ x, frameDataParse (rsp 0x70 [8]) FrameData.new = .ok (0, x) ∧ x.type = DATA_ERROR := ⟨_, C35_error _ _ (by decide) rfl, rfl⟩

/-! Direct instances of the theorems above: a readout of one or two telegrams with one volume record each. -/

theorem charData_of_forall (s : List Byte) (h : ∀ c ∈ s, c ≠ 60 ∧ c ≠ 38 ∧ (32 ≤ c.toNat ∨ c = 10)) : CharData s := by
  induction s with
  | nil => exact .nil
  | cons c t ih =>
    obtain ⟨h1, h2, h3⟩ := h c (by simp)
    exact .char h1 h2 h3 (ih fun d hd => h d (by simp [hd]))

theorem volume_delivered : Delivered volumeItem.1 := volume_reads.delivered _ (by simp)
theorem volume_storage : StorageOk volumeItem.1 := ⟨by decide, by decide +kernel⟩
theorem volume_items : ∀ i ∈ [[volumeItem], [volumeItem]], ∀ it ∈ i, Showable it ∧ StampOk it.2.2 := by
  intro i hi it hit
  have : i = [volumeItem] := by simpa using hi
  subst this
  rw [List.mem_singleton.mp hit]
  exact volume_showable
example := C56_variable_partial (fun _ => 7) (fun _ _ => 7) hdrHeader [volumeItem]
  (fun it h => ⟨volume_reads.delivered it.1 (by rw [List.mem_singleton.mp h]; simp), volume_items [volumeItem] (by simp) it h⟩) (by decide)
example := C58_partial (fun _ => 7) (fun _ _ => 7) (volumeTelegram, volumeItem.2.2) [(volumeTelegram, volumeItem.2.2)] hdrHeader [volumeItem] [[volumeItem]]
  volume_reads (by simp) (.cons ⟨⟨hdrHeader, volume_reads⟩, by simp⟩ .nil) volume_items (by decide) (by decide)
example := C76_wellFormed_partial (fun _ => 7) (fun _ _ => 7) (volumeTelegram, volumeItem.2.2) [(volumeTelegram, volumeItem.2.2)] hdrHeader [volumeItem] [[volumeItem]]
  volume_reads (by simp) (.cons ⟨⟨hdrHeader, volume_reads⟩, by simp⟩ .nil) volume_items
  (by
    intro i hi it hit s hs
    have : i = [volumeItem] := by simpa using hi
    subst this
    rw [List.mem_singleton.mp hit] at hs
    injection hs with hs
    subst hs
    exact charData_of_forall _ (by decide))
  (by decide) (by decide)
example : ∃ o, frameXml (fun _ => 7) (fun _ _ => 7) (volumeTelegram, volumeItem.2.2) [(volumeTelegram, volumeItem.2.2)] = .ok o ∧ o.text ≠ none ∧
    o.lostBuffer = false ∧ o.lostRecords = [] := by
  obtain ⟨m, p, h, _⟩ := C56_frame_partial (fun _ => 7) (fun _ _ => 7) (volumeTelegram, volumeItem.2.2) [(volumeTelegram, volumeItem.2.2)] hdrHeader [volumeItem]
    [[volumeItem]] volume_reads (by simp) (.cons ⟨⟨hdrHeader, volume_reads⟩, by simp⟩ .nil) volume_items (by decide) (by decide)
  exact ⟨_, h, by simp, C78_returned_partial _ _ _ _ _ h (by simp)⟩
example (m : List Byte) := C80_single (fun _ => 7) (fun _ _ => 7) volumeTelegram none _ (by decide) rfl rfl m

end Mbus
