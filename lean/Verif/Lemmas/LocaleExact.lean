import Verif.Lemmas.Locale
import Verif.Lemmas.XmlExact
import Verif.Lemmas.XmlForm
import Verif.Lemmas.XmlExactNorm
/-
Lemmas for C129: the exact documents in a locale.  The proofs follow those of Lemmas/XmlRecord and Lemmas/XmlExact.
-/
namespace Mbus
open Spec

variable {L : Locale} {p : Byte}

/-- A text of ASCII characters. -/
def AsciiText (s : List Byte) : Prop := ∀ c ∈ s, c.toNat < 128
instance (s : List Byte) : Decidable (AsciiText s) := by unfold AsciiText; infer_instance

theorem blanked_ascii {s : List Byte} (h : AsciiText s) : blanked L s = s := by
  unfold blanked
  rw [List.map_congr_left (g := id) fun c hc => ?_, List.map_id]
  have := h c hc
  rw [if_neg (by omega)]
  rfl

theorem blanked_nonul {s : List Byte} (h : (0 : Byte) ∉ s) : (0 : Byte) ∉ blanked L s := by
  intro m
  obtain ⟨c, hc, he⟩ := List.mem_map.mp m
  by_cases hb : 128 ≤ c.toNat ∧ L.cntrl c = true
  · rw [if_pos hb] at he; exact absurd he (by decide)
  · rw [if_neg hb] at he; exact h (he ▸ hc)

theorem Spec.Ascii.low (hL : Ascii L) {c : Byte} (hc : c.toNat < 128) : L.cntrl c = isCntrl c := by
  apply Bool.eq_iff_iff.mpr
  rw [hL.ascii c hc]
  unfold isCntrl
  simp only [Bool.or_eq_true, decide_eq_true_eq]
  omega

theorem xmlLoop_blanked (hL : Ascii L) (m : Nat) (s : List Byte) (len : Nat) (d : List Byte) :
    xmlLoopIn L m s len d = xmlLoop m (blanked L s) len d := by
  induction s generalizing len d with
  | nil => rfl
  | cons c s ih =>
    show _ = xmlLoop m ((if 128 ≤ c.toNat ∧ L.cntrl c = true then 32 else c) :: blanked L s) len d
    by_cases hc : c.toNat < 128
    · have hn : (if 128 ≤ c.toNat ∧ L.cntrl c = true then 32 else c) = c := if_neg (by omega)
      rw [hn, xmlLoop, xmlLoopIn]
      simp only [hL.low hc, ih]
    · have hc : 128 ≤ c.toNat := by omega
      have n1 : c ≠ 0 := ne_high hc (by decide)
      have n2 : c ≠ 38 := ne_high hc (by decide)
      have n3 : c ≠ 60 := ne_high hc (by decide)
      have n4 : c ≠ 62 := ne_high hc (by decide)
      have n5 : c ≠ 34 := ne_high hc (by decide)
      by_cases h1 : L.cntrl c = true
      · have hn : (if 128 ≤ c.toNat ∧ L.cntrl c = true then 32 else c) = 32 := if_pos ⟨hc, h1⟩
        rw [hn, xmlLoop, xmlLoopIn]
        have e1 : isCntrl 32 = false := by decide
        have e2 : ((32 : Byte) = 0) = False := by simp
        have e3 : ((32 : Byte) = 38) = False := by simp
        have e4 : ((32 : Byte) = 60) = False := by simp
        have e5 : ((32 : Byte) = 62) = False := by simp
        have e6 : ((32 : Byte) = 34) = False := by simp
        simp only [h1, if_true, n1, if_false, e1, e2, e3, e4, e5, e6, Bool.false_eq_true, ih]
        try rfl
      · have hn : (if 128 ≤ c.toNat ∧ L.cntrl c = true then 32 else c) = c := if_neg (fun h => h1 h.2)
        rw [hn, xmlLoop, xmlLoopIn]
        simp only [h1, if_false, n1, n2, n3, n4, n5, cntrl_high hc, Bool.false_eq_true, ih]
        try rfl

theorem encodeInto_blanked (hL : Ascii L) (e s : List Byte) : encodeIntoIn L e s = encodeInto e (blanked L s) := by
  unfold encodeIntoIn encodeInto strXmlEncodeIn strXmlEncode
  have : blanked L (s ++ [0]) = blanked L s ++ [0] := by
    unfold blanked
    rw [List.map_append, List.map_singleton, if_neg (fun h => absurd h.1 (by decide))]
  rw [xmlLoop_blanked hL, this]

theorem function_ascii : ∀ t ∈ [cs! "Manufacturer specific", cs! "More records follow", cs! "Instantaneous value", cs! "Maximum value",
      cs! "Minimum value", cs! "Value during error state"], AsciiText t := by decide +kernel

theorem blanked_label (r : Record) : blanked L (functionLabel r) = functionLabel r := blanked_ascii (function_ascii _ (functionLabel_mem r))

theorem product_ascii : ∀ e ∈ productRules, ∀ p ∈ e.2, AsciiText p.label := by decide +kernel

theorem productName_ascii {h : VarHeader} {t : List Byte} (h1 : productName h = .ok t) : AsciiText t := by
  have e : ∃ a b c, t = productNameText h a b c := by
    unfold productName at h1
    obtain ⟨m0, _, h1⟩ := bind_eq_ok.mp h1
    obtain ⟨m1, _, h1⟩ := bind_eq_ok.mp h1
    obtain ⟨i3, _, h1⟩ := bind_eq_ok.mp h1
    unfold strcpyS at h1
    split at h1
    · exact ⟨i3, m0, m1, by injection h1 with h1; exact h1.symm⟩
    · cases h1
  obtain ⟨a, b, c, rfl⟩ := e
  unfold productNameText
  dsimp only
  split
  · exact fun _ h => nomatch h
  · rename_i e he
    split
    · exact fun _ h => nomatch h
    · rename_i p hp
      exact product_ascii e (List.mem_of_find?_eq_some he) p (List.mem_of_find?_eq_some hp)

theorem headerXmlIn_label (hL : Ascii L) (e : List Byte) {h : VarHeader} {t : List Byte} (h1 : productName h = .ok t) :
    encodeIntoIn L e t = encodeInto e t := by rw [encodeInto_blanked hL, blanked_ascii (productName_ascii h1)]

theorem fixed_ascii (x : FixedData) (st : Int) : AsciiText (fixedMedium x) ∧ AsciiText (fixedFunction st) := by
  obtain ⟨h1, h2, h3⟩ := C64_fixed x 0 st
  rw [h1, h3]
  refine ⟨caseOf_all AsciiText _ _ _ (by decide +kernel) (by decide +kernel), ?_⟩
  unfold fixedFunctionText
  split <;> decide +kernel

theorem escape_blanked_length (s : List Byte) : (escape (blanked L s)).length = (escape s).length := by
  induction s with
  | nil => rfl
  | cons c s ih =>
    show (escape1 (if 128 ≤ c.toNat ∧ L.cntrl c = true then 32 else c) ++ escape (blanked L s)).length = (escape1 c ++ escape s).length
    rw [List.length_append, List.length_append, ih]
    congr 1
    by_cases hb : 128 ≤ c.toNat ∧ L.cntrl c = true
    · rw [if_pos hb]
      have key : ∀ c : Byte, 128 ≤ c.toNat → (escape1 c).length = 1 := forall_byte (by decide +kernel)
      rw [key c hb.1]
      decide
    · rw [if_neg hb]

theorem Short.blanked {s : List Byte} (h : Short s) : Short (blanked L s) :=
  ⟨by rw [escape_blanked_length]; exact h.1, blanked_nonul h.2⟩

/-! ### values -/

theorem fmtFIn_replace (x : Flt) : fmtFIn L x = (fmtF x).flatMap (fun c => if c = 46 then L.point else [c]) := by
  have keep : ∀ l : List Byte, (46 : Byte) ∉ l → l.flatMap (fun c => if c = 46 then L.point else [c]) = l := by
    intro l hl
    induction l with
    | nil => rfl
    | cons c l ih =>
      simp only [List.mem_cons, not_or] at hl
      rw [List.flatMap_cons, if_neg (fun h => hl.1 h.symm), ih hl.2]
      rfl
  have dig : ∀ l : List Byte, (∀ c ∈ l, 48 ≤ c.toNat ∧ c.toNat ≤ 57) → (46 : Byte) ∉ l := fun l h m => by
    have := h 46 m; revert this; decide
  cases x with
  | inf neg => cases neg <;> rfl
  | nan neg => cases neg <;> rfl
  | fin neg m =>
    have s : (46 : Byte) ∉ (if neg then [45] else [] : List Byte) := by cases neg <;> decide
    simp only [fmtF, fmtFIn, List.flatMap_append, keep _ s, keep _ (dig _ (decDigits_digit _)),
      keep _ (dig _ (padZero_digit 6 _ (decDigits_digit _))), List.flatMap_cons, List.flatMap_nil, List.append_nil, if_true]

theorem fmtFIn_length (w : Nat) : (fmtFIn L (ieee32 w)).length ≤ 60 + L.point.length := by
  have := fmtF_length w
  cases h : ieee32 w with
  | inf neg => rw [h] at this; exact Nat.le_trans this (by omega)
  | nan neg => rw [h] at this; exact Nat.le_trans this (by omega)
  | fin neg m =>
    rw [h] at this
    simp only [fmtF, fmtFIn, List.length_append, List.length_cons, List.length_nil] at this ⊢
    omega

theorem meaning_real {r : Record} {x : Flt} (h : meaning r = .real x) : r.dif.toNat % 16 = 5 := by
  unfold meaning at h
  have hk : r.dif.toNat % 16 < 16 := Nat.mod_lt _ (by decide)
  generalize r.dif.toNat % 16 = k at h hk
  match k, hk with
  | 5, _ => rfl
  | 0, _ | 1, _ | 3, _ | 7, _ | 8, _ | 9, _ | 10, _ | 11, _ | 12, _ | 14, _ | 15, _ => cases h
  | 2, _ =>
    change (if IsDate r then Meaning.date _ else Meaning.int _) = _ at h
    by_cases hh : IsDate r
    · rw [if_pos hh] at h; cases h
    · rw [if_neg hh] at h; cases h
  | 4, _ =>
    change (if IsDateTime r then Meaning.dateTime _ else Meaning.int _) = _ at h
    by_cases hh : IsDateTime r
    · rw [if_pos hh] at h; cases h
    · rw [if_neg hh] at h; cases h
  | 6, _ =>
    change (if IsDateTime r then Meaning.dateTime _ else Meaning.int _) = _ at h
    by_cases hh : IsDateTime r
    · rw [if_pos hh] at h; cases h
    · rw [if_neg hh] at h; cases h
  | 13, _ =>
    change (if (r.data.bytes.headD 0).toNat ≤ 0xBF then Meaning.text _ else Meaning.raw _) = _ at h
    by_cases hh : (r.data.bytes.headD 0).toNat ≤ 0xBF
    · rw [if_pos hh] at h; cases h
    · rw [if_neg hh] at h; cases h
  | k + 16, h => omega

theorem recordDecodeIn_leaves (hL : Ascii L) (buff : List Byte) (r : Record) (hb : buff.length = 768) (hn : r.dataLen ≤ 234)
    (h1 : r.dif.toNat % 16 = 0xD → 1 ≤ r.dataLen) : Leaves (recordDecodeIn L buff r) (shownIn L r) := by
  have hl : r.data.bytes.length = 234 := r.data.length_bytes
  have hk : (r.dif &&& 0x0F).toNat = r.dif.toNat % 16 := nibble_eq r.dif
  by_cases h : (r.dif &&& 0x0F).toNat = 5
  · have hm : meaning r = .real (ieee32 (leNat (r.data.bytes.take 4))) := by
      unfold meaning
      rw [← hk, h]
      rfl
    rw [(recordDecode_real (L := L) buff r h).2, floatDecode_eq _ (by omega)]
    rw [rd0, ok_bind]
    have hs : shownIn L r = fmtFIn L (ieee32 (leNat (r.data.bytes.take 4))) := by
      unfold shownIn
      rw [hm, fmtFIn_replace]
      unfold shown
      rw [hm]
    rw [hs]
    have := fmtFIn_length (L := L) (leNat (r.data.bytes.take 4))
    have := hL.point.2
    exact print_leaves buff _ hb (by omega)
  · rw [recordDecode_other buff r h]
    have hs : shownIn L r = shown r := by
      unfold shownIn
      split
      · rename_i x hx
        exact absurd (meaning_real hx) (by rw [← hk]; exact h)
      · rfl
    rw [hs]
    exact recordDecode_leaves buff r hb hn h1

theorem recordValueIn_shown (hL : Ascii L) (buff : List Byte) (r : Record) (hb : buff.length = 768) (hn : r.dataLen ≤ 234)
    (h1 : r.dif.toNat % 16 = 0xD → 1 ≤ r.dataLen) : recordValueIn L buff r = .ok (upToNul (shownIn L r)) := by
  obtain ⟨b, h2, h3, h4⟩ := recordDecodeIn_leaves hL buff r hb hn h1
  unfold recordValueIn
  rw [h2, ok_bind, cstr_prefix _ _ h4, ok_bind]
  unfold snp
  rw [List.take_of_length_le]
  have := h4.length_le
  have := (List.takeWhile_sublist (fun x : Byte => decide (x ≠ 0)) (l := shownIn L r)).length_le
  simp only [List.length_append, List.length_cons, List.length_nil] at *
  unfold upToNul
  omega

/-! ### documents -/

theorem fieldsIn_runs (hL : Ascii L) {b : XBuf} {t : List Byte} (hb : Text b 8192 t) (hl : t.length ≤ 2000) (e : List Byte) (he : e.length = 768)
    (r : Record) (u : List Byte) (hp : Printable r u) :
    Runs (recordFieldsXmlIn L e b r) (fun p => p.2.length = 768 ∧ ∃ ue, EscapedCut (blanked L u) ue ∧
      Text p.1 8192 (t ++ (fieldLines r ue).flatMap leaf)) := by
  have hf := functionLabel_short r
  have e1 : ∀ x, cs! "        <Function>" ++ x ++ cs! "</Function>\n" = leaf (cs! "Function", x) := fun x => by simp [leaf]
  have e2 : ∀ x, cs! "        <StorageNumber>" ++ x ++ cs! "</StorageNumber>\n" = leaf (cs! "StorageNumber", x) := fun x => by simp [leaf]
  have e3 : ∀ x, cs! "        <Unit>" ++ x ++ cs! "</Unit>\n" = leaf (cs! "Unit", x) := fun x => by simp [leaf]
  unfold recordFieldsXmlIn
  simp only [e1, e2, e3, encodeInto_blanked hL]
  have cut0 : ∃ ue, EscapedCut (blanked L u) ue := by
    obtain ⟨p, _, _, h⟩ := encode_cut e (blanked L u) he (blanked_nonul hp.unit0)
    exact ⟨_, h⟩
  obtain ⟨ue, hue⟩ := cut0
  by_cases h0F : r.dif = 0x0F
  · rw [if_pos h0F]
    refine put_bind hb.holds _ (by simp; omega) fun b1 hb1 => .ok ⟨he, ue, hue, ?_⟩
    have hsp : Special r := .inl h0F
    simpa [fieldLines, hsp, functionLabel, h0F, leaf] using hb1
  · rw [if_neg h0F]
    by_cases h1F : r.dif = 0x1F
    · rw [if_pos h1F]
      refine put_bind hb.holds _ (by simp; omega) fun b1 hb1 => .ok ⟨he, ue, hue, ?_⟩
      have hsp : Special r := .inr h1F
      simpa [fieldLines, hsp, functionLabel, h1F, leaf] using hb1
    · rw [if_neg h1F]
      have hsp : ¬ Special r := fun h => h.elim h0F h1F
      obtain ⟨h8, hst⟩ := hp.storage hsp
      have h2 := decDigits_31 _ hst
      have h3 := tariffLines_length r h8
      rw [functionLabel_ordinary r hsp, blanked_label]
      refine (encodeInto_all e _ hf.2.1 (by rw [hf.2.2]; omega)).bind fun q hq => ?_
      obtain ⟨e', t'⟩ := q
      obtain ⟨he', rfl⟩ := hq
      dsimp only at he' ⊢
      rw [hf.2.2]
      refine put_bind hb.holds _ (by simp [leaf_length]; omega) fun b1 hb1 => ?_
      rw [C33_storage_partial r h8 hst, ok_bind, fmtInt_nat]
      refine put_bind hb1.holds _ (by simp [leaf_length]; omega) fun b2 hb2 => ?_
      refine (tariff_runs hb2 r h8 (by simp [leaf_length]; omega)).bind fun b3 hb3 => ?_
      rw [hp.unit, ok_bind]
      refine (encode_cut e' (blanked L u) (by omega) (blanked_nonul hp.unit0)).bind fun q hq => ?_
      obtain ⟨e'', ue'⟩ := q
      obtain ⟨he'', hue'⟩ := hq
      dsimp only at he'' hue' ⊢
      have hul : ue'.length < 768 := hue'.choose_spec.2.2.1
      refine put_bind hb3.holds _ (by simp [leaf_length] at h3 ⊢; omega) fun b4 hb4 => .ok ⟨he'', ue', hue', ?_⟩
      simpa [fieldLines, hsp, dec] using hb4

theorem recordXmlIn_runs (hL : Ascii L) (junk : Nat → Byte) (r : Record) (u : List Byte) (hp : Printable r u) (stamp : Option (List Byte))
    (hst : StampOk stamp) (id : Nat) (hid : id < 2 ^ 31) (frame : Option Nat) (hf : ∀ k, frame = some k → k < 2 ^ 31) :
    ∃ ue ve, EscapedCut (blanked L u) ue ∧ EscapedCut (blanked L (upToNul (shownIn L r))) ve ∧
      recordXmlIn L junk r stamp id (frameArg frame) = .ok (rawGroup id frame r ue ve stamp).render := by
  suffices h : Runs (recordXmlIn L junk r stamp id (frameArg frame)) (fun t => ∃ ue ve, EscapedCut (blanked L u) ue ∧
      EscapedCut (blanked L (upToNul (shownIn L r))) ve ∧ t = (rawGroup id frame r ue ve stamp).render) by
    obtain ⟨t, h1, ue, ve, h2, h3, rfl⟩ := h
    exact ⟨ue, ve, h2, h3, h1⟩
  have hol := openTag_length id frame hid hf
  have e1 : ∀ x, cs! "        <Value>" ++ x ++ cs! "</Value>\n" = leaf (cs! "Value", x) := fun x => by simp [leaf]
  have e2 : ∀ x, cs! "        <Timestamp>" ++ x ++ cs! "</Timestamp>\n" = leaf (cs! "Timestamp", x) := fun x => by simp [leaf]
  unfold recordXmlIn
  simp only [e1, encodeInto_blanked hL]
  refine (recordOpen_runs _ id frame hid hf).bind fun b1 hb1 => ?_
  refine (fieldsIn_runs hL hb1 (by omega) _ (by simp) r u hp).bind fun q hq => ?_
  obtain ⟨b2, e⟩ := q
  obtain ⟨he, ue, hue, hb2⟩ := hq
  dsimp only at he hb2 ⊢
  have hul : ue.length < 768 := hue.choose_spec.2.2.1
  have hfl := fieldLines_length r ue hp.storage
  have hfl' : ((fieldLines r ue).flatMap leaf).length ≤ 956 := by split at hfl <;> omega
  clear hfl
  rw [recordValueIn_shown hL _ r (by simp) hp.dlen hp.lvar, ok_bind]
  refine (encode_cut e _ he (blanked_nonul (upToNul_nonul _))).bind fun q hq => ?_
  obtain ⟨e', ve⟩ := q
  obtain ⟨_, hve⟩ := hq
  dsimp only at hve ⊢
  have hvl : ve.length < 768 := hve.choose_spec.2.2.1
  refine put_bind hb2.holds _ (by simp only [leaf_length, List.length_append, List.length_cons, List.length_nil]; omega) fun b3 hb3 => ?_
  have h3 : (openTag id frame ++ (fieldLines r ue).flatMap leaf ++ leaf (cs! "Value", ve)).length ≤ 2000 := by
    simp only [leaf_length, List.length_append, List.length_cons, List.length_nil]; omega
  have stampRun : Runs (stampXml b3 stamp) (fun b => Text b 8192 (openTag id frame ++ (fieldLines r ue).flatMap leaf ++
      leaf (cs! "Value", ve) ++ stampLines stamp)) := by
    cases stamp with
    | none => exact .ok (by simpa [stampLines] using hb3)
    | some ts =>
      obtain ⟨_, hts⟩ := hst ts rfl
      show Runs (b3.put (cs! "        <Timestamp>" ++ ts ++ cs! "</Timestamp>\n")) _
      rw [e2]
      exact put_last hb3.holds _ (by simp only [leaf_length, List.length_cons, List.length_nil]; omega) fun b h => h
  refine stampRun.bind fun b4 hb4 => ?_
  have h4 : (stampLines stamp).length ≤ 60 := by
    cases stamp with
    | none => simp [stampLines]
    | some ts =>
      obtain ⟨_, hts⟩ := hst ts rfl
      simp only [stampLines, leaf_length, List.length_cons, List.length_nil]; omega
  refine put_bind hb4.holds _ (by simp only [List.length_append] at h3 ⊢; simp only [List.length_cons, List.length_nil]; omega) fun b5 hb5 => ?_
  rw [← rawGroup_render] at hb5
  exact ⟨_, text_cstr hb5 (rawGroup_nonul id frame r ue ve stamp (hue.nonul (blanked_nonul hp.unit0)) (hve.nonul (blanked_nonul (upToNul_nonul _)))
    (fun t h => (hst t h).1)), ue, ve, hue, hve, rfl⟩

theorem headerXmlIn_runs (hL : Ascii L) (junk : Nat → Byte) (h : VarHeader) : ∃ p, productName h = .ok p ∧
    headerXmlIn L junk h = .ok (slaveGroup h p (blanked L (mediumLookup h.medium))).render ∧
    (slaveGroup h p (blanked L (mediumLookup h.medium))).render.length ≤ 1000 ∧
    (0 : Byte) ∉ (slaveGroup h p (blanked L (mediumLookup h.medium))).render := by
  obtain ⟨p, hp, hpl, hp0⟩ := productName_plain h
  obtain ⟨hml, hm0⟩ := medium_plain h.medium
  rw [← escape_blanked_length (L := L)] at hml
  replace hm0 := blanked_nonul (L := L) hm0
  obtain ⟨hid, hidlt⟩ := bcdDecodeHex4 h.idBcd
  have hflag := flag_eq h.manufacturer
  have hidl := hexDigits_8 _ hidlt
  have hv := decDigits_byte h.version
  have ha := decDigits_byte h.accessNo
  have hfl : (flagLetters (leNat h.manufacturer.bytes)).length = 3 := rfl
  refine ⟨p, hp, ?_, ?_, ?_⟩
  · have key : Runs (headerXmlIn L junk h) (fun t => t = (slaveGroup h p (blanked L (mediumLookup h.medium))).render) := by
      unfold headerXmlIn
      have e1 : ∀ x, cs! "        <Id>" ++ x ++ cs! "</Id>\n" = leaf (cs! "Id", x) := fun x => by simp [leaf]
      have e2 : ∀ x, cs! "        <Manufacturer>" ++ x ++ cs! "</Manufacturer>\n" = leaf (cs! "Manufacturer", x) := fun x => by simp [leaf]
      have e3 : ∀ x, cs! "        <Version>" ++ x ++ cs! "</Version>\n" = leaf (cs! "Version", x) := fun x => by simp [leaf]
      have e4 : ∀ x, cs! "        <ProductName>" ++ x ++ cs! "</ProductName>\n" = leaf (cs! "ProductName", x) := fun x => by simp [leaf]
      have e5 : ∀ x, cs! "        <Medium>" ++ x ++ cs! "</Medium>\n" = leaf (cs! "Medium", x) := fun x => by simp [leaf]
      have e6 : ∀ x, cs! "        <AccessNumber>" ++ x ++ cs! "</AccessNumber>\n" = leaf (cs! "AccessNumber", x) := fun x => by simp [leaf]
      have e7 : ∀ x, cs! "        <Status>" ++ x ++ cs! "</Status>\n" = leaf (cs! "Status", x) := fun x => by simp [leaf]
      have e8 : ∀ x y, cs! "        <Signature>" ++ x ++ y ++ cs! "</Signature>\n" = leaf (cs! "Signature", x ++ y) := fun x y => by simp [leaf]
      simp only [e1, e2, e3, e4, e5, e6, e7, e8, encodeInto_blanked hL]
      refine put_bind (holds_new _ _) _ (by simp) fun b1 h1 => ?_
      rw [hid, ok_bind, toNat_mod64 _ hidlt]
      refine put_bind h1.holds _ (by simp [leaf_length]; omega) fun b2 h2 => ?_
      have hflag' : ∀ (k : List Byte → C (List Byte)), (do
          let m0 ← h.manufacturer.rd 0
          let m1 ← h.manufacturer.rd 1
          let man ← decodeManufacturer m0 m1
          k man) = k (flagLetters (leNat h.manufacturer.bytes)) := by
        intro k
        rw [h.manufacturer.rd_lt (i := 0) (by decide), h.manufacturer.rd_lt (i := 1) (by decide)] at hflag ⊢
        rw [ok_bind, ok_bind] at hflag ⊢
        rw [hflag, ok_bind]
      rw [hflag']
      refine put_bind h2.holds _ (by simp [leaf_length]; omega) fun b3 h3 => ?_
      rw [fmtInt_nat]
      refine put_bind h3.holds _ (by simp [leaf_length]; omega) fun b4 h4 => ?_
      rw [hp, ok_bind, blanked_ascii (productName_ascii hp)]
      refine (encodeInto_all _ p hp0 (by simp; omega)).bind fun q hq => ?_
      obtain ⟨e, t⟩ := q
      obtain ⟨hel, rfl⟩ := hq
      simp only [malloc_length] at hel
      refine put_bind h4.holds _ (by simp [leaf_length]; omega) fun b5 h5 => ?_
      refine (encodeInto_all e _ hm0 (by omega)).bind fun q hq => ?_
      obtain ⟨e', t⟩ := q
      obtain ⟨_, rfl⟩ := hq
      refine put_bind h5.holds _ (by simp [leaf_length]; omega) fun b6 h6 => ?_
      rw [fmtInt_nat]
      refine put_bind h6.holds _ (by simp [leaf_length]; omega) fun b7 h7 => ?_
      refine put_bind h7.holds _ (by simp [leaf_length]; omega) fun b8 h8 => ?_
      rw [h.signature.rd_lt (i := 1) (by decide), ok_bind, h.signature.rd_lt (i := 0) (by decide), ok_bind]
      refine put_bind h8.holds _ (by simp [leaf_length]; omega) fun b9 h9 => ?_
      refine put_bind h9.holds _ (by simp [leaf_length]; omega) fun b10 h10 => ?_
      have e : ∀ t, t = (slaveGroup h p (blanked L (mediumLookup h.medium))).render → Text b10 8192 t → Runs (cstr b10.mem)
          (fun t => t = (slaveGroup h p (blanked L (mediumLookup h.medium))).render) :=
        fun t et ht => ⟨t, text_cstr ht (by rw [et]; exact slaveGroup_nonul h p _ hp0 hm0), et⟩
      exact e _ (by simp [slaveGroup, Group.render, signature_eq, dec, hex]) h10
    obtain ⟨t, h1, rfl⟩ := key
    exact h1
  · simp [slaveGroup, Group.render, signature_eq, dec, hex, leaf_length]
    omega
  · exact slaveGroup_nonul h p _ hp0 hm0

theorem startIn_fares (hL : Ascii L) {α : Type} (junk junk0 : Nat → Byte) (h : VarHeader) (p : List Byte) (hp : productName h = .ok p) (k : XBuf → C α)
    (o : Option Room) (P : Room → α → Prop) (hk : ∀ b, Shows b ⟨8192, startLength (slaveGroup h p (blanked L (mediumLookup h.medium))), none⟩
      (cs! "<?xml version=\"1.0\" encoding=\"ISO-8859-1\"?>\n<MBusData>\n\n" ++ (slaveGroup h p (blanked L (mediumLookup h.medium))).render) → Fares (k b) o P) :
    Fares (do
      let b : XBuf := ⟨malloc junk 8192, 0⟩
      let b ← b.put XML_PI
      let b ← b.put (cs! "<MBusData>\n\n")
      let t ← headerXmlIn L junk0 h
      let b ← b.put t
      k b) o P := by
  obtain ⟨p', hp', h1, h2, h3⟩ := headerXmlIn_runs hL junk0 h
  rw [hp] at hp'
  injection hp' with hp'
  subst hp'
  obtain ⟨b1, e1, hb1⟩ := put_runs (holds_new junk 8192) XML_PI (by simp [XML_PI])
  obtain ⟨b2, e2, hb2⟩ := put_runs hb1.holds (cs! "<MBusData>\n\n") (by simp [XML_PI])
  obtain ⟨b3, e3, hb3⟩ := put_runs hb2.holds (slaveGroup h p (blanked L (mediumLookup h.medium))).render (by simp [XML_PI]; omega)
  have hb3' : Text b3 8192 (cs! "<?xml version=\"1.0\" encoding=\"ISO-8859-1\"?>\n<MBusData>\n\n" ++
      (slaveGroup h p (blanked L (mediumLookup h.medium))).render) := by simpa [XML_PI] using hb3
  dsimp only
  rw [e1, ok_bind, e2, ok_bind, h1, ok_bind, e3, ok_bind]
  have := roomy_shows hb3'
  rw [List.length_append] at this
  exact hk b3 this

theorem errorXmlIn_runs (hL : Ascii L) (junk : Nat → Byte) (e : Int) :
    Runs (errorXmlIn L junk e) (fun m => document [errorGroup (blanked L (errorLookup e))] ++ [0] <+: m) := by
  have hs := (error_short e).blanked (L := L)
  have g1 := hs.1
  unfold errorXmlIn
  have e1 : ∀ t, cs! "        <Error>" ++ t ++ cs! "</Error>\n" = leaf (cs! "Error", t) := fun t => by simp [leaf]
  simp only [e1, encodeInto_blanked hL]
  refine put_bind (holds_new _ _) _ (by simp [XML_PI]) fun b1 h1 => ?_
  refine put_bind h1.holds _ (by simp [XML_PI]) fun b2 h2 => ?_
  refine put_bind h2.holds _ (by simp [XML_PI]) fun b3 h3 => ?_
  refine (encode_short (by simp) hs).bind fun q hq => ?_
  obtain ⟨a1, t⟩ := q
  obtain ⟨l1, rfl⟩ := hq
  refine put_bind h3.holds _ (by simp [XML_PI, leaf_length]; omega) fun b4 h4 => ?_
  refine put_bind h4.holds _ (by simp [XML_PI, leaf_length]; omega) fun b5 h5 => ?_
  refine put_bind h5.holds _ (by simp [XML_PI, leaf_length]; omega) fun b6 h6 => .ok ?_
  have := h6.2.2
  simpa [document, errorGroup, Group.render, XML_PI] using this

set_option maxRecDepth 8000 in
theorem fixedXmlIn_runs (hL : Ascii L) (junk : Nat → Byte) (x : FixedData) : Runs (fixedXmlIn L junk x) (fun m =>
    document (fixedGroups x (fixedMedium x) (fixedFunction x.status.toNat) (blanked L (fixedUnit x.cnt1Type.toNat)) (blanked L (fixedUnit x.cnt2Type.toNat))) ++ [0] <+: m) := by
  obtain ⟨hm, hu1, hf⟩ := fixed_short x x.cnt1Type.toNat x.status.toNat
  obtain ⟨_, hu2, _⟩ := fixed_short x x.cnt2Type.toNat x.status.toNat
  obtain ⟨hid, hidlt⟩ := bcdDecodeHex4 x.idBcd
  have hidl := hexDigits_8 _ hidlt
  obtain ⟨hc1, hl1⟩ := counter_runs x.status x.cnt1Val
  obtain ⟨hc2, hl2⟩ := counter_runs x.status x.cnt2Val
  have hv := decDigits_byte x.txCnt
  replace hu1 := hu1.blanked (L := L)
  replace hu2 := hu2.blanked (L := L)
  have g1 := hm.1
  have g2 := hu1.1
  have g3 := hf.1
  have g4 := hu2.1
  unfold fixedXmlIn
  have e1 : ∀ t, cs! "        <Id>" ++ t ++ cs! "</Id>\n" = leaf (cs! "Id", t) := fun t => by simp [leaf]
  have e2 : ∀ t, cs! "        <Medium>" ++ t ++ cs! "</Medium>\n" = leaf (cs! "Medium", t) := fun t => by simp [leaf]
  have e3 : ∀ t, cs! "        <AccessNumber>" ++ t ++ cs! "</AccessNumber>\n" = leaf (cs! "AccessNumber", t) := fun t => by simp [leaf]
  have e4 : ∀ t, cs! "        <Status>" ++ t ++ cs! "</Status>\n" = leaf (cs! "Status", t) := fun t => by simp [leaf]
  have e5 : ∀ t, cs! "        <Function>" ++ t ++ cs! "</Function>\n" = leaf (cs! "Function", t) := fun t => by simp [leaf]
  have e6 : ∀ t, cs! "        <Unit>" ++ t ++ cs! "</Unit>\n" = leaf (cs! "Unit", t) := fun t => by simp [leaf]
  have e7 : ∀ t, cs! "        <Value>" ++ t ++ cs! "</Value>\n" = leaf (cs! "Value", t) := fun t => by simp [leaf]
  simp only [e1, e2, e3, e4, e5, e6, e7, encodeInto_blanked hL, blanked_ascii (fixed_ascii x x.status.toNat).1, blanked_ascii (fixed_ascii x x.status.toNat).2]
  refine put_bind (holds_new _ _) _ (by simp [XML_PI]) fun b1 h1 => ?_
  refine put_bind h1.holds _ (by simp [XML_PI]) fun b2 h2 => ?_
  refine put_bind h2.holds _ (by simp [XML_PI]) fun b3 h3 => ?_
  rw [hid, ok_bind, toNat_mod64 _ hidlt]
  refine put_bind h3.holds _ (by simp [XML_PI, leaf_length]; omega) fun b4 h4 => ?_
  refine (encode_short (by simp) hm).bind fun q hq => ?_
  obtain ⟨a1, t⟩ := q
  obtain ⟨l1, rfl⟩ := hq
  refine put_bind h4.holds _ (by simp [XML_PI, leaf_length]; omega) fun b5 h5 => ?_
  rw [fmtInt_nat]
  refine put_bind h5.holds _ (by simp [XML_PI, leaf_length]; omega) fun b6 h6 => ?_
  refine put_bind h6.holds _ (by simp [XML_PI, leaf_length]; omega) fun b7 h7 => ?_
  refine put_bind h7.holds _ (by simp [XML_PI, leaf_length]; omega) fun b8 h8 => ?_
  refine put_bind h8.holds _ (by simp [XML_PI, leaf_length]; omega) fun b9 h9 => ?_
  refine (encode_short l1 hf).bind fun q hq => ?_
  obtain ⟨a2, t⟩ := q
  obtain ⟨l2, rfl⟩ := hq
  refine put_bind h9.holds _ (by simp [XML_PI, leaf_length]; omega) fun b10 h10 => ?_
  refine (encode_short l2 hu1).bind fun q hq => ?_
  obtain ⟨a3, t⟩ := q
  obtain ⟨l3, rfl⟩ := hq
  refine put_bind h10.holds _ (by simp [XML_PI, leaf_length]; omega) fun b11 h11 => ?_
  rw [hc1, ok_bind]
  refine put_bind h11.holds _ (by simp [XML_PI, leaf_length]; omega) fun b12 h12 => ?_
  refine put_bind h12.holds _ (by simp [XML_PI, leaf_length]; omega) fun b13 h13 => ?_
  refine put_bind h13.holds _ (by simp [XML_PI, leaf_length]; omega) fun b14 h14 => ?_
  refine (encode_short l3 hf).bind fun q hq => ?_
  obtain ⟨a4, t⟩ := q
  obtain ⟨l4, rfl⟩ := hq
  refine put_bind h14.holds _ (by simp [XML_PI, leaf_length]; omega) fun b15 h15 => ?_
  refine (encode_short l4 hu2).bind fun q hq => ?_
  obtain ⟨a5, t⟩ := q
  obtain ⟨l5, rfl⟩ := hq
  refine put_bind h15.holds _ (by simp [XML_PI, leaf_length]; omega) fun b16 h16 => ?_
  rw [hc2, ok_bind]
  refine put_bind h16.holds _ (by simp [XML_PI, leaf_length]; omega) fun b17 h17 => ?_
  refine put_bind h17.holds _ (by simp [XML_PI, leaf_length]; omega) fun b18 h18 => ?_
  refine put_bind h18.holds _ (by simp [XML_PI, leaf_length]; omega) fun b19 h19 => .ok ?_
  have := h19.2.2
  simpa [document, fixedGroups, Group.render, attr, XML_PI, hex, dec] using this

theorem recordGroupIn_raw (L : Locale) (id : Nat) (frame : Option Nat) (r : Record) (u : List Byte) (stamp : Option (List Byte)) :
    recordGroupIn L id frame r u stamp = rawGroup id frame r (escapeInto 768 (blanked L u)) (escapeInto 768 (blanked L (upToNul (shownIn L r)))) stamp := rfl

theorem recordXmlIn_exact (hL : Ascii L) (junk : Nat → Byte) (it : Item) (h : Fit it) (id : Nat) (hid : id < 2 ^ 31) (frame : Option Nat)
    (hf : ∀ k, frame = some k → k < 2 ^ 31) :
    recordXmlIn L junk it.1 it.2.2 id (frameArg frame) = .ok (recordGroupIn L id frame it.1 it.2.1 it.2.2).render := by
  obtain ⟨ue, ve, hue, hve, he⟩ := recordXmlIn_runs hL junk it.1 it.2.1 h.1 it.2.2 h.2 id hid frame hf
  rw [he, recordGroupIn_raw, hue.exact, hve.exact]

theorem recordsXmlIn_fares (hL : Ascii L) (junk : Nat → Nat → Byte) (frame : Option Nat) (hf : ∀ k, frame = some k → k < 2 ^ 31) (its : List Item)
    (h : ∀ it ∈ its, Fit it) (start : Nat) (hc : start + its.length < 2 ^ 31) (b : XBuf) (room : Room) (t : List Byte) (hb : Shows b room t) :
    Fares (recordsXmlIn L junk (frameArg frame) (its.map fun it => (it.1, it.2.2)) start b) (room.records (whole (recordGroupsIn L frame start its)))
      (fun room' p => p.2 = ((start + its.length : Nat) : Int) ∧ Shows p.1 room' (t ++ (recordGroupsIn L frame start its).flatMap Group.render)) := by
  induction its generalizing start b t room with
  | nil => exact .ok ⟨rfl, by simpa [recordGroupsIn] using hb⟩
  | cons it its ih =>
    have hc' : start + 1 + its.length < 2 ^ 31 := by simp at hc; omega
    obtain ⟨r, u, stamp⟩ := it
    have e1 := recordXmlIn_exact hL (junk ((start : Int)).toNat) (r, u, stamp) (h _ (List.mem_cons_self ..)) start (by omega) frame hf
    dsimp only at e1
    simp only [List.map_cons, recordsXmlIn, recordGroupsIn, whole, Room.records, texts_one]
    rw [e1, ok_bind]
    refine (put_shows (grow_shows (scratch (junk ((start : Int)).toNat) 3) hb) _).bind fun room' b' hb' => ?_
    have : ((start : Int) + 1) = ((start + 1 : Nat) : Int) := by simp
    rw [this, int32_nat _ (by omega), ok_bind]
    refine (ih (fun x hx => h x (List.mem_cons_of_mem _ hx)) (start + 1) (by omega) b' _ _ hb').mono fun room2 p hp => ?_
    refine ⟨?_, ?_⟩
    · rw [hp.1]; simp; omega
    · simpa using hp.2

theorem variableXmlIn_fares (hL : Ascii L) (junk0 : Nat → Byte) (junk : Nat → Nat → Byte) (h : VarHeader) (p : List Byte) (hp : productName h = .ok p)
    (its : List Item) (hr : ∀ it ∈ its, Fit it) (hc : its.length < 2 ^ 31) :
    Meets (variableXmlIn L junk0 junk h (its.map fun it => (it.1, it.2.2))) (fun m => m)
      (document (slaveGroup h p (blanked L (mediumLookup h.medium)) :: recordGroupsIn L none 0 its))
      (xmlFate (startLength (slaveGroup h p (blanked L (mediumLookup h.medium)))) (whole (recordGroupsIn L none 0 its))) := by
  refine fares_meets ?_
  unfold variableXmlIn
  refine startIn_fares hL _ _ h p hp _ _ _ fun b hb => ?_
  refine (recordsXmlIn_fares hL junk none (by simp) its hr 0 (by omega) b _ _ hb).bind fun room q hq => ?_
  obtain ⟨b', cnt⟩ := q
  refine (close_fares hq.2 (fun m => m)).mono fun r a ha => ?_
  simpa [document] using ha

theorem chainXmlIn_fares (hL : Ascii L) (junk : Nat → Nat → Byte) (ts : List Telegram) (tss : List (List Item)) (hp : Pointwise ItemsOf ts tss)
    (hr : ∀ its ∈ tss, ∀ it ∈ its, Fit it) (x : FrameData) (freed : Bool) (cnt k : Nat) (hc : cnt + total tss < 2 ^ 31)
    (hk : k + tss.length < 2 ^ 31) (b : XBuf) (room : Room) (t : List Byte) (hb : Shows b room t) :
    Fares (chainXmlIn L junk ts x freed cnt k b) ((room.records (whole (telegramGroupsIn L cnt k tss))).bind fun r => r.text 12)
      (fun r o => ∃ b', Shows b' r (t ++ (telegramGroupsIn L cnt k tss).flatMap Group.render ++ cs! "</MBusData>\n") ∧ o = ⟨some b'.mem, false, []⟩) := by
  induction hp generalizing x freed cnt k b t room with
  | nil =>
    refine (close_fares hb (fun m => (⟨some m, false, []⟩ : XmlOut))).mono fun r a ha => ?_
    simpa [telegramGroupsIn] using ha
  | @cons tel its ts tss hi _ ih =>
    obtain ⟨f, stamp⟩ := tel
    obtain ⟨⟨h, hreads⟩, hst⟩ := hi
    obtain ⟨v, _, hv, hparse, _⟩ := hreads.any x
    have hc1 : cnt + its.length + total tss < 2 ^ 31 := by simp [total] at hc ⊢; omega
    have hk1 : k + 1 + tss.length < 2 ^ 31 := by simp at hk; omega
    unfold chainXmlIn
    dsimp only at hst hparse
    rw [hparse, ok_bind]
    dsimp only
    rw [if_neg (by decide)]
    have e : (freed && decide (DATA_VARIABLE ≠ DATA_VARIABLE)) = false := by simp
    rw [e, if_neg (by decide), hv, items_map its stamp hst]
    have ew : whole (telegramGroupsIn L cnt k (its :: tss)) = whole (recordGroupsIn L (some k) cnt its) ++ whole (telegramGroupsIn L (cnt + its.length) (k + 1) tss) := by
      simp [whole, telegramGroupsIn]
    rw [ew, records_append, Option.bind_assoc]
    refine (recordsXmlIn_fares hL junk (some k) (fun j h => by injection h with h; omega) its (hr its (List.mem_cons_self ..)) cnt (by omega) b _ t
      hb).bind fun room' q hq => ?_
    obtain ⟨b', cnt'⟩ := q
    obtain ⟨rfl, hb'⟩ := hq
    dsimp only at hb' ⊢
    have : ((k : Int) + 1) = ((k + 1 : Nat) : Int) := by simp
    rw [this, int32_nat _ (by omega), ok_bind]
    refine (ih (fun i hi => hr i (List.mem_cons_of_mem _ hi)) { x with type := DATA_VARIABLE, var := { v with records := [] } }
      (decide (its.map (·.1) ≠ [])) (cnt + its.length) (k + 1) hc1 hk1 b' _ _ hb').mono fun r o ho => ?_
    simpa [telegramGroupsIn] using ho

theorem frameXmlIn_fares (hL : Ascii L) (junk0 : Nat → Byte) (junk : Nat → Nat → Byte) (t : Telegram) (ts : List Telegram) (its : List Item)
    (tss : List (List Item)) (h : VarHeader) (p : List Byte) (hp : productName h = .ok p) (hread : Reads t.1 h (its.map (·.1)))
    (hst : ∀ it ∈ its, it.2.2 = t.2) (hi : Pointwise ItemsOf ts tss) (hr : ∀ i ∈ its :: tss, ∀ it ∈ i, Fit it)
    (hc : total (its :: tss) < 2 ^ 31) (hk : (its :: tss).length < 2 ^ 31) :
    Meets (frameXmlIn L junk0 junk t ts) (fun m => ⟨some m, false, []⟩)
      (document (slaveGroup h p (blanked L (mediumLookup h.medium)) :: readoutGroupsIn L (its :: tss)))
      (xmlFate (startLength (slaveGroup h p (blanked L (mediumLookup h.medium)))) (whole (readoutGroupsIn L (its :: tss)))) := by
  obtain ⟨v, hv1, hv, hparse, _⟩ := hread.any FrameData.new
  have hc1 : its.length + total tss < 2 ^ 31 := by simpa [total] using hc
  have hk1 : 1 + tss.length < 2 ^ 31 := by simp at hk; omega
  subst hv1
  refine fares_meets ?_
  unfold frameXmlIn
  rw [hparse, ok_bind]
  dsimp only
  rw [if_neg (by decide), if_neg (by decide), if_neg (by decide), if_pos rfl, hv, items_map its t.2 hst]
  refine startIn_fares hL _ _ v.header p hp _ _ _ fun b hb => ?_
  cases hi with
  | nil =>
    have e : (if List.isEmpty ([] : List Telegram) = true then (-1 : Int) else 0) = frameArg none := rfl
    rw [e]
    refine (recordsXmlIn_fares hL junk none (by simp) its (hr its (List.mem_cons_self ..)) 0 (by omega) b _ _ hb).bind fun room q hq => ?_
    obtain ⟨b', cnt⟩ := q
    obtain ⟨rfl, hb'⟩ := hq
    dsimp only at hb' ⊢
    have e2 : int32 (frameArg none + 1) = .ok 0 := rfl
    rw [e2, ok_bind]
    refine (close_fares hb' (fun m => (⟨some m, false, []⟩ : XmlOut))).mono fun r a ha => ?_
    simpa [document, readoutGroupsIn] using ha
  | @cons t2 i2 ts2 tss2 hi2 hi3 =>
    have e : (if List.isEmpty (t2 :: ts2) = true then (-1 : Int) else 0) = frameArg (some 0) := rfl
    rw [e]
    have ew : whole (readoutGroupsIn L (its :: i2 :: tss2)) = whole (recordGroupsIn L (some 0) 0 its) ++ whole (telegramGroupsIn L (0 + its.length) 1 (i2 :: tss2)) := by
      simp [whole, readoutGroupsIn, telegramGroupsIn]
    rw [ew, records_append, Option.bind_assoc]
    refine (recordsXmlIn_fares hL junk (some 0) (by simp) its (hr its (List.mem_cons_self ..)) 0 (by omega) b _ _ hb).bind fun room q hq => ?_
    obtain ⟨b', cnt⟩ := q
    obtain ⟨rfl, hb'⟩ := hq
    dsimp only at hb' ⊢
    have e2 : int32 (frameArg (some 0) + 1) = .ok ((1 : Nat) : Int) := rfl
    rw [e2, ok_bind]
    refine (chainXmlIn_fares hL junk (t2 :: ts2) (i2 :: tss2) (.cons hi2 hi3) (fun i hi => hr i (List.mem_cons_of_mem _ hi))
      { FrameData.new with type := DATA_VARIABLE, var := { v with records := [] } } (decide (its.map (·.1) ≠ [])) (0 + its.length) 1
      (by omega) hk1 b' _ _ hb').mono fun r o ho => ?_
    simpa [document, readoutGroupsIn, telegramGroupsIn] using ho

/-! ### normalised records -/

theorem encodeIn_exact (hL : Ascii L) {e : List Byte} (he : e.length = 768) (s : List Byte) (hs : (0 : Byte) ∉ s) :
    ∃ e', encodeIntoIn L e s = .ok (e', escapeInto 768 (blanked L s)) ∧ e'.length = 768 := by
  rw [encodeInto_blanked hL]
  exact encode_exact he _ (blanked_nonul hs)

theorem encodeOptIn_exact (hL : Ascii L) {e : List Byte} (he : e.length = 768) (s : Option (List Byte)) (hs : (0 : Byte) ∉ s.getD []) :
    ∃ e', encodeOptIn L e s = .ok (e', escapeInto 768 (blanked L (s.getD []))) ∧ e'.length = 768 := by
  cases s with
  | some s => exact encodeIn_exact hL he s hs
  | none =>
    obtain ⟨⟨e', t⟩, h1, h2, h3⟩ := encodeOpt_le he none hs (by simp [escape])
    dsimp only at h2 h3
    subst h3
    exact ⟨e', h1, h2⟩

/-- The elements inside a normalised record. -/
def leavesIn (L : Locale) (n : Option NRecord) : List (List Byte × List Byte) := (normGroupIn L 0 n).leaves

theorem nvalueIn_fares (hL : Ascii L) {b : XBuf} {r : Room} {t : List Byte} (h : Shows b r t) (e : List Byte) (he : e.length = 768) (n : NRecord)
    (hv : ∀ s k, n.value = .str s k → (0 : Byte) ∈ s) :
    Fares (nvalueXmlIn L e b n.value) (r.texts [(leaf (cs! "Value", normTextIn L n)).length])
      (fun r' p => p.2.length = 768 ∧ Shows p.1 r' (t ++ leaf (cs! "Value", normTextIn L n))) := by
  have e1 : ∀ x, cs! "        <Value>" ++ x ++ cs! "</Value>\n" = leaf (cs! "Value", x) := fun x => by simp [leaf]
  unfold normTextIn
  cases hn : n.value with
  | num x =>
    simp only [nvalueXmlIn, e1, fmtFIn_replace]
    exact put_fares h _ fun r1 b1 h1 => .ok ⟨he, h1⟩
  | str s k =>
    simp only [nvalueXmlIn, e1, fmtFIn_replace]
    rw [cstr_mem s (hv s k hn), ok_bind]
    obtain ⟨e', h2, h3⟩ := encodeIn_exact hL he (upToNul s) (upToNul_nonul s)
    rw [h2, ok_bind]
    exact put_fares h _ fun r1 b1 h1 => .ok ⟨h3, h1⟩

theorem nfieldsIn_fares (hL : Ascii L) {b : XBuf} {r : Room} {t : List Byte} (hb : Shows b r t) (e : List Byte) (he : e.length = 768) (n : Option NRecord)
    (hn : ∀ m, n = some m → NFit m) :
    Fares (nfieldsXmlIn L e b n) (r.texts ((leavesIn L n).map fun l => (leaf l).length))
      (fun r' p => p.2.length = 768 ∧ Shows p.1 r' (t ++ (leavesIn L n).flatMap leaf)) := by
  have e1 : ∀ x, cs! "        <Function>" ++ x ++ cs! "</Function>\n" = leaf (cs! "Function", x) := fun x => by simp [leaf]
  have e2 : ∀ x, cs! "        <StorageNumber>" ++ x ++ cs! "</StorageNumber>\n" = leaf (cs! "StorageNumber", x) := fun x => by simp [leaf]
  have e3 : ∀ x, cs! "        <Unit>" ++ x ++ cs! "</Unit>\n" = leaf (cs! "Unit", x) := fun x => by simp [leaf]
  have e4 : ∀ x, cs! "        <Quantity>" ++ x ++ cs! "</Quantity>\n" = leaf (cs! "Quantity", x) := fun x => by simp [leaf]
  cases n with
  | none => exact .ok ⟨he, by simpa [leavesIn, normGroupIn] using hb⟩
  | some n =>
    have h := hn n rfl
    have hleaves : leavesIn L (some n) = (cs! "Function", escapeInto 768 (blanked L n.function)) :: (cs! "StorageNumber", fmtInt n.storage) ::
        ((if n.tariff ≥ 0 then [(cs! "Tariff", fmtInt n.tariff), (cs! "Device", fmtInt n.device)] else []) ++
        [(cs! "Unit", escapeInto 768 (blanked L (n.unit.getD []))), (cs! "Quantity", escapeInto 768 (blanked L (n.quantity.getD []))),
         (cs! "Value", normTextIn L n)]) := by
      simp [leavesIn, normGroupIn]
    rw [hleaves]
    unfold nfieldsXmlIn
    simp only [e1, e2, e3, e4]
    obtain ⟨a1, g1, l1⟩ := encodeIn_exact hL he n.function h.function.1
    obtain ⟨a2, g2, l2⟩ := encodeOptIn_exact hL l1 n.unit h.unit
    obtain ⟨a3, g3, l3⟩ := encodeOptIn_exact hL l2 n.quantity h.quantity
    rw [g1, ok_bind]
    dsimp only
    rw [List.map_cons, List.map_cons, List.map_append]
    refine put_fares hb _ fun r1 b1 h1 => ?_
    refine put_fares h1 _ fun r2 b2 h2 => ?_
    rw [texts_append]
    refine (ntariff_fares h2 n).bind fun r3 b3 h3 => ?_
    rw [g2, ok_bind]
    dsimp only
    refine put_fares h3 _ fun r4 b4 h4 => ?_
    rw [g3, ok_bind]
    dsimp only
    refine put_fares h4 _ fun r5 b5 h5 => ?_
    refine (nvalueIn_fares hL h5 a3 l3 n h.value).mono fun r6 p hp => ⟨hp.1, ?_⟩
    simpa using hp.2

theorem normGroupIn_render (L : Locale) (i : Nat) (n : Option NRecord) : (normGroupIn L i n).render =
    cs! "    <DataRecord id=\"" ++ decDigits i ++ cs! "\">\n" ++ (leavesIn L n).flatMap leaf ++ cs! "    </DataRecord>\n\n" := by
  cases n <;> simp [normGroupIn, leavesIn, Group.render, attr, dec]

theorem normGroupIn_lines (L : Locale) (i : Nat) (n : Option NRecord) : lineLengths (normGroupIn L i n) =
    (cs! "    <DataRecord id=\"" ++ decDigits i ++ cs! "\">\n").length :: ((leavesIn L n).map (fun l => (leaf l).length) ++
      [(cs! "    </DataRecord>\n\n").length]) := by
  cases n <;> simp [normGroupIn, leavesIn, lineLengths, attr, dec]

theorem nrecordIn_fares (hL : Ascii L) {b : XBuf} {r : Room} {t : List Byte} (hb : Shows b r t) (e : List Byte) (he : e.length = 768) (n : Option NRecord)
    (hn : ∀ m, n = some m → NFit m) (i : Nat) :
    Fares (nrecordXmlIn L n i e b) (r.texts (lineLengths (normGroupIn L i n)))
      (fun r' p => p.2.length = 768 ∧ Shows p.1 r' (t ++ (normGroupIn L i n).render)) := by
  rw [normGroupIn_lines, normGroupIn_render]
  unfold nrecordXmlIn
  refine put_fares hb _ fun r1 b1 h1 => ?_
  rw [texts_append]
  refine (nfieldsIn_fares hL h1 e he n hn).bind fun r2 p hp => ?_
  obtain ⟨b2, e2⟩ := p
  dsimp only at hp ⊢
  refine put_fares hp.2 _ fun r3 b3 h3 => .ok ⟨hp.1, ?_⟩
  simpa using h3

theorem nrecordsIn_fares (hL : Ascii L) (junk : Nat → Nat → Byte) (rs : List Record) (start : Nat) (e : List Byte) (he : e.length = 768)
    (h : ∀ r ∈ rs, ∀ j, ∃ n leak, parseVariableRecord j r = .ok (n, leak) ∧ ∀ m, n = some m → NFit m) :
    ∃ ns, Pointwise (fun r n => ∃ j leak, parseVariableRecord j r = .ok (n, leak)) rs ns ∧
      ∀ (b : XBuf) (room : Room) (t : List Byte), Shows b room t → Fares (nrecordsXmlIn L junk rs start e b) (room.records ((normGroupsIn L start ns).map lineLengths))
        (fun r' b' => Shows b' r' (t ++ (normGroupsIn L start ns).flatMap Group.render)) := by
  suffices hh : ∃ ns, Pointwise (fun r n => ∃ j leak, parseVariableRecord j r = .ok (n, leak)) rs ns ∧
      ∀ (e : List Byte), e.length = 768 → ∀ (b : XBuf) (room : Room) (t : List Byte), Shows b room t →
        Fares (nrecordsXmlIn L junk rs start e b) (room.records ((normGroupsIn L start ns).map lineLengths))
        (fun r' b' => Shows b' r' (t ++ (normGroupsIn L start ns).flatMap Group.render)) by
    obtain ⟨ns, h1, h2⟩ := hh
    exact ⟨ns, h1, h2 e he⟩
  clear he
  induction rs generalizing start with
  | nil => exact ⟨[], .nil, fun e he b room t hb => .ok (by simpa [normGroupsIn] using hb)⟩
  | cons r rs ih =>
    obtain ⟨n, leak, hp, hn⟩ := h r (List.mem_cons_self ..) (junk start)
    obtain ⟨ns, h1, h2⟩ := ih (start + 1) (fun r hr => h r (List.mem_cons_of_mem _ hr))
    refine ⟨n :: ns, .cons ⟨_, _, hp⟩ h1, fun e he b room t hb => ?_⟩
    have ec : normGroupsIn L start (n :: ns) = normGroupIn L start n :: normGroupsIn L (start + 1) ns := by simp [normGroupsIn, List.zipIdx_cons]
    rw [ec]
    unfold nrecordsXmlIn
    rw [hp, ok_bind]
    dsimp only
    simp only [List.map_cons, Room.records]
    refine (nrecordIn_fares hL (grow_shows (scratch (junk start) 3) hb) e he n hn start).bind fun r' p hp => ?_
    obtain ⟨b', e'⟩ := p
    dsimp only at hp ⊢
    refine (h2 e' hp.1 b' _ _ hp.2).mono fun r2 b2 hb2 => ?_
    simpa using hb2

theorem variableXmlNormalizedIn_fares (hL : Ascii L) (junk0 : Nat → Byte) (junk : Nat → Nat → Byte) (v : VarData) (p : List Byte) (hp : productName v.header = .ok p)
    (h : ∀ r ∈ v.records, ∀ j, ∃ n leak, parseVariableRecord j r = .ok (n, leak) ∧ ∀ m, n = some m → NFit m) :
    ∃ ns, Pointwise (fun r n => ∃ j leak, parseVariableRecord j r = .ok (n, leak)) v.records ns ∧
      Meets (variableXmlNormalizedIn L junk0 junk v) (fun m => m)
        (document (slaveGroup v.header p (blanked L (mediumLookup v.header.medium)) :: normGroupsIn L 0 ns))
        (xmlFate (startLength (slaveGroup v.header p (blanked L (mediumLookup v.header.medium)))) ((normGroupsIn L 0 ns).map lineLengths)) := by
  obtain ⟨ns, h1, h2⟩ := nrecordsIn_fares hL junk v.records 0 (List.replicate 768 0) List.length_replicate h
  refine ⟨ns, h1, fares_meets ?_⟩
  unfold variableXmlNormalizedIn
  refine startIn_fares hL _ _ v.header p hp _ _ _ fun b hb => ?_
  refine (h2 b _ _ hb).bind fun room b' hb' => ?_
  refine (close_fares hb' (fun m => m)).mono fun r a ha => ?_
  simpa [document] using ha

end Mbus
