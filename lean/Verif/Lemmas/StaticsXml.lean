import Verif.Lemmas.Statics
namespace Mbus
open Spec

theorem holds_mem (m : List Byte) (n : Nat) (h : m.length = n) : Holds ⟨m, 0⟩ n [] := by
  refine ⟨h, rfl, ?_⟩
  simp

theorem medium_nonul' : ∀ m : Byte, (0 : Byte) ∉ mediumText m := forall_byte (by decide +kernel)

/-- the buffers `mbus_data_variable_header_xml` may write -/
def headerWrites : List SBuf := [.headerXml, .medium, .product, .manufacturer]

theorem sHeaderXml_tells (e : List Byte) (he : e.length = 768) (h : VarHeader) (t : List Byte) (junk : Nat → Byte) (ht : headerXml junk h = .ok t) (s : Statics) (hs : Sized s) :
    Tells (sHeaderXml e h s) s headerWrites [.headerXml] t := by
  obtain ⟨p, hp, hpl, hp0⟩ := productName_plain h
  obtain ⟨p', hp', hpx⟩ := productName_ok h
  have : p' = p := Except.ok.inj (hp'.symm.trans hp)
  subst this
  obtain ⟨q, hq, hx, _, hx0⟩ := headerXml_runs junk h
  have : q = p' := Except.ok.inj (hq.symm.trans hp)
  subst this
  replace ht := Except.ok.inj (hx.symm.trans ht)
  obtain ⟨hml, hm0⟩ := medium_plain h.medium
  obtain ⟨hid, hidlt⟩ := bcdDecodeHex4 h.idBcd
  have hflag := flag_eq h.manufacturer
  have hidl := hexDigits_8 _ hidlt
  have hv := decDigits_byte h.version
  have ha := decDigits_byte h.accessNo
  have hfl : (flagLetters (leNat h.manufacturer.bytes)).length = 3 := rfl
  have key : Runs (sHeaderXml e h s) (fun z => z.1 = .buf .headerXml ∧ Sized z.2 ∧ (∀ b, b ∉ headerWrites → z.2 b = s b) ∧ cstr (z.2 .headerXml) = .ok t) := by
    unfold sHeaderXml
    have e1 : ∀ x, cs! "        <Id>" ++ x ++ cs! "</Id>\n" = leaf (cs! "Id", x) := fun x => by simp [leaf]
    have e2 : ∀ x, cs! "        <Manufacturer>" ++ x ++ cs! "</Manufacturer>\n" = leaf (cs! "Manufacturer", x) := fun x => by simp [leaf]
    have e3 : ∀ x, cs! "        <Version>" ++ x ++ cs! "</Version>\n" = leaf (cs! "Version", x) := fun x => by simp [leaf]
    have e4 : ∀ x, cs! "        <ProductName>" ++ x ++ cs! "</ProductName>\n" = leaf (cs! "ProductName", x) := fun x => by simp [leaf]
    have e5 : ∀ x, cs! "        <Medium>" ++ x ++ cs! "</Medium>\n" = leaf (cs! "Medium", x) := fun x => by simp [leaf]
    have e6 : ∀ x, cs! "        <AccessNumber>" ++ x ++ cs! "</AccessNumber>\n" = leaf (cs! "AccessNumber", x) := fun x => by simp [leaf]
    have e7 : ∀ x, cs! "        <Status>" ++ x ++ cs! "</Status>\n" = leaf (cs! "Status", x) := fun x => by simp [leaf]
    have e8 : ∀ x y, cs! "        <Signature>" ++ x ++ y ++ cs! "</Signature>\n" = leaf (cs! "Signature", x ++ y) := fun x y => by simp [leaf]
    simp only [e1, e2, e3, e4, e5, e6, e7, e8]
    refine put_bind (holds_mem _ _ (hs .headerXml)) _ (by simp [SBuf.cap]) fun b1 h1 => ?_
    rw [hid, ok_bind, toNat_mod64 _ hidlt]
    refine put_bind h1.holds _ (by simp [leaf_length, SBuf.cap]; omega) fun b2 h2 => ?_
    rw [h.manufacturer.rd_lt (i := 0) (by decide), h.manufacturer.rd_lt (i := 1) (by decide)] at hflag ⊢
    rw [ok_bind, ok_bind] at hflag ⊢
    obtain ⟨p1, s1, x1, z1, w1, y1, _⟩ := sManufacturer_tells _ _ _ hflag hfl (flagLetters_nonul _) s hs
    rw [x1, ok_bind]
    dsimp only
    rw [y1, ok_bind]
    refine put_bind h2.holds _ (by simp [leaf_length, SBuf.cap]; omega) fun b3 h3 => ?_
    rw [fmtInt_nat]
    refine put_bind h3.holds _ (by simp [leaf_length, SBuf.cap]; omega) fun b4 h4 => ?_
    obtain ⟨p2, s2, x2, z2, w2, y2, _⟩ := sProduct_tells h q hp hpx hp0 s1 z1
    rw [x2, ok_bind]
    dsimp only
    rw [y2, ok_bind]
    refine (encodeInto_all _ q hp0 (by omega)).bind fun q hq => ?_
    obtain ⟨e, t'⟩ := q
    obtain ⟨hel, rfl⟩ := hq
    dsimp only at hel
    refine put_bind h4.holds _ (by simp [leaf_length, SBuf.cap]; omega) fun b5 h5 => ?_
    obtain ⟨p3, s3, x3, z3, w3, y3, _⟩ := sPlain_tells .medium (mediumText h.medium) (medium_nonul' _) s2 z2
    rw [x3, ok_bind]
    dsimp only
    rw [y3, ok_bind]
    change Runs (encodeInto e (mediumLookup h.medium) >>= _) _
    refine (encodeInto_all e _ hm0 (by omega)).bind fun q hq => ?_
    obtain ⟨e', t''⟩ := q
    obtain ⟨_, rfl⟩ := hq
    refine put_bind h5.holds _ (by simp [leaf_length, SBuf.cap]; omega) fun b6 h6 => ?_
    rw [fmtInt_nat]
    refine put_bind h6.holds _ (by simp [leaf_length, SBuf.cap]; omega) fun b7 h7 => ?_
    refine put_bind h7.holds _ (by simp [leaf_length, SBuf.cap]; omega) fun b8 h8 => ?_
    rw [h.signature.rd_lt (i := 1) (by decide), ok_bind, h.signature.rd_lt (i := 0) (by decide), ok_bind]
    refine put_bind h8.holds _ (by simp [leaf_length, SBuf.cap]; omega) fun b9 h9 => ?_
    refine put_bind h9.holds _ (by simp [leaf_length, SBuf.cap]; omega) fun b10 h10 => ?_
    have hm : b10.mem.length = SBuf.headerXml.cap := h10.1
    refine .ok ⟨rfl, sized_set z3 _ _ hm, ?_, ?_⟩
    · intro b hb
      have hb1 : b ≠ .headerXml := fun e => hb (e ▸ by decide)
      have hb2 : b ∉ [SBuf.medium] := fun e => hb (by rw [List.mem_singleton] at e; rw [e]; decide)
      have hb3 : b ∉ [SBuf.product] := fun e => hb (by rw [List.mem_singleton] at e; rw [e]; decide)
      have hb4 : b ∉ [SBuf.manufacturer] := fun e => hb (by rw [List.mem_singleton] at e; rw [e]; decide)
      dsimp only
      rw [set_other _ _ hb1, w3 b hb2, w2 b hb3, w1 b hb4]
    · dsimp only
      rw [set_same]
      have e : ∀ u, u = (slaveGroup h q (mediumLookup h.medium)).render → Text b10 8192 u → cstr b10.mem = .ok t :=
        fun u eu hu => by rw [text_cstr hu (by rw [eu]; exact hx0), eu, ht]
      exact e _ (by simp [slaveGroup, Group.render, signature_eq, dec, hex]) h10
  obtain ⟨⟨p1, s1⟩, k1, k2, k3, k4, k5⟩ := key
  dsimp only at k2 k3 k4 k5
  subst k2
  exact ⟨_, _, k1, k3, k4, k5, by simp⟩

theorem malloc_self (m : List Byte) (n : Nat) (h : m.length = n) : malloc (fun i => m.getD i 0) n = m := by
  subst h
  apply List.ext_getElem
  · simp [malloc]
  · intro i h1 h2
    simp [malloc, List.getD_eq_getElem?_getD, List.getElem?_eq_getElem h2]

theorem recordOpen_mem (m : List Byte) (hm : m.length = 8192) (id : Nat) (frame : Option Nat) (hid : id < 2 ^ 31) (hf : ∀ k, frame = some k → k < 2 ^ 31) :
    Runs (recordOpenXml ⟨m, 0⟩ id (frameArg frame)) (fun b => Text b 8192 (openTag id frame)) := by
  have := recordOpen_runs (fun i => m.getD i 0) id frame hid hf
  rwa [malloc_self m 8192 hm] at this

theorem function_nonul (r : Record) : (0 : Byte) ∉ recordFunctionText r := by
  unfold recordFunctionText
  dsimp only
  repeat' split
  all_goals decide

/-- the buffers the fields of a record may write -/
def fieldWrites : List SBuf := .function :: .unit :: vibWrites

theorem sRecordFields_runs {b : XBuf} {t : List Byte} (hb : Text b 8192 t) (hl : t.length ≤ 2000) (e : List Byte) (he : e.length = 768)
    (r : Record) (u : List Byte) (hp : Printable r u) (s : Statics) (hs : Sized s) :
    Runs (sRecordFields e b r s) (fun p => p.2.1.length = 768 ∧ Sized p.2.2 ∧ (∀ c, c ∉ fieldWrites → p.2.2 c = s c) ∧ ∃ ue, EscapedCut u ue ∧
      Text p.1 8192 (t ++ (fieldLines r ue).flatMap leaf)) := by
  have hf := functionLabel_short r
  have e1 : ∀ x, cs! "        <Function>" ++ x ++ cs! "</Function>\n" = leaf (cs! "Function", x) := fun x => by simp [leaf]
  have e2 : ∀ x, cs! "        <StorageNumber>" ++ x ++ cs! "</StorageNumber>\n" = leaf (cs! "StorageNumber", x) := fun x => by simp [leaf]
  have e3 : ∀ x, cs! "        <Unit>" ++ x ++ cs! "</Unit>\n" = leaf (cs! "Unit", x) := fun x => by simp [leaf]
  unfold sRecordFields
  simp only [e1, e2, e3]
  have cut0 : ∃ ue, EscapedCut u ue := by
    obtain ⟨p, _, _, h⟩ := encode_cut e u he hp.unit0
    exact ⟨_, h⟩
  obtain ⟨ue, hue⟩ := cut0
  by_cases h0F : r.dif = 0x0F
  · rw [if_pos h0F]
    refine put_bind hb.holds _ (by simp; omega) fun b1 hb1 => .ok ⟨he, hs, fun _ _ => rfl, ue, hue, ?_⟩
    have hsp : Special r := .inl h0F
    simpa [fieldLines, hsp, functionLabel, h0F, leaf] using hb1
  · rw [if_neg h0F]
    by_cases h1F : r.dif = 0x1F
    · rw [if_pos h1F]
      refine put_bind hb.holds _ (by simp; omega) fun b1 hb1 => .ok ⟨he, hs, fun _ _ => rfl, ue, hue, ?_⟩
      have hsp : Special r := .inr h1F
      simpa [fieldLines, hsp, functionLabel, h1F, leaf] using hb1
    · rw [if_neg h1F]
      have hsp : ¬ Special r := fun h => h.elim h0F h1F
      obtain ⟨h8, hst⟩ := hp.storage hsp
      have h2 := decDigits_31 _ hst
      have h3 := tariffLines_length r h8
      obtain ⟨p1, s1, x1, z1, w1, y1, _⟩ := sPlain_tells .function (recordFunctionText r) (function_nonul r) s hs
      rw [x1, ok_bind]
      dsimp only
      rw [y1, ok_bind]
      change Runs (encodeInto e (recordFunction r) >>= _) _
      rw [functionLabel_ordinary r hsp]
      refine (encodeInto_all e _ hf.2.1 (by rw [hf.2.2]; omega)).bind fun q hq => ?_
      obtain ⟨e', t'⟩ := q
      obtain ⟨he', rfl⟩ := hq
      dsimp only at he' ⊢
      rw [hf.2.2]
      refine put_bind hb.holds _ (by simp [leaf_length]; omega) fun b1 hb1 => ?_
      rw [C33_storage_partial r h8 hst, ok_bind, fmtInt_nat]
      refine put_bind hb1.holds _ (by simp [leaf_length]; omega) fun b2 hb2 => ?_
      refine (tariff_runs hb2 r h8 (by simp [leaf_length]; omega)).bind fun b3 hb3 => ?_
      obtain ⟨p2, s2, x2, z2, w2, y2, _⟩ := sUnit_tells r u hp.unit s1 z1
      rw [x2, ok_bind]
      dsimp only
      rw [y2, ok_bind]
      refine (encode_cut e' u (by omega) hp.unit0).bind fun q hq => ?_
      obtain ⟨e'', ue'⟩ := q
      obtain ⟨he'', hue'⟩ := hq
      dsimp only at he'' hue' ⊢
      have hul : ue'.length < 768 := hue'.choose_spec.2.2.1
      refine put_bind hb3.holds _ (by simp [leaf_length] at h3 ⊢; omega) fun b4 hb4 => .ok ⟨he'', z2, ?_, ue', hue', ?_⟩
      · intro c hc
        have hc1 : c ∉ [SBuf.function] := fun h => hc (by rw [List.mem_singleton] at h; rw [h]; exact List.mem_cons_self ..)
        have hc2 : c ∉ SBuf.unit :: vibWrites := fun h => hc (List.mem_cons_of_mem _ h)
        dsimp only
        rw [w2 c hc2, w1 c hc1]
      · simpa [fieldLines, hsp, dec] using hb4

/-- the buffers `mbus_data_variable_record_xml` may write -/
def recordWrites : List SBuf := .recordXml :: .value :: .decode :: fieldWrites

theorem sRecordXml_tells (e : List Byte) (he : e.length = 768) (r : Record) (u : List Byte) (hp : Printable r u) (stamp : Option (List Byte))
    (hst : StampOk stamp) (id : Nat) (hid : id < 2 ^ 31) (frame : Option Nat) (hf : ∀ k, frame = some k → k < 2 ^ 31) (junk : Nat → Byte) (t : List Byte)
    (ht : recordXml junk r stamp id (frameArg frame) = .ok t) (s : Statics) (hs : Sized s) :
    Tells (sRecordXml e r stamp id (frameArg frame) s) s recordWrites [.recordXml] t := by
  obtain ⟨ue0, ve0, hue0, hve0, hx⟩ := recordXml_runs junk r u hp stamp hst id hid frame hf
  have htx := Except.ok.inj (ht.symm.trans hx)
  clear hx ht
  have key : Runs (sRecordXml e r stamp id (frameArg frame) s) (fun z => z.1 = .buf .recordXml ∧ Sized z.2 ∧ (∀ b, b ∉ recordWrites → z.2 b = s b) ∧
      cstr (z.2 .recordXml) = .ok t) := by
    have hol := openTag_length id frame hid hf
    have e1 : ∀ x, cs! "        <Value>" ++ x ++ cs! "</Value>\n" = leaf (cs! "Value", x) := fun x => by simp [leaf]
    have e2 : ∀ x, cs! "        <Timestamp>" ++ x ++ cs! "</Timestamp>\n" = leaf (cs! "Timestamp", x) := fun x => by simp [leaf]
    unfold sRecordXml
    simp only [e1]
    refine (recordOpen_mem (s .recordXml) (hs .recordXml) id frame hid hf).bind fun b1 hb1 => ?_
    refine (sRecordFields_runs hb1 (by omega) e he r u hp s hs).bind fun q hq => ?_
    obtain ⟨b2, e, s1⟩ := q
    obtain ⟨he, z1, w1, ue, hue, hb2⟩ := hq
    dsimp only at he hb2 z1 w1 ⊢
    have hul : ue.length < 768 := hue.choose_spec.2.2.1
    have hfl := fieldLines_length r ue hp.storage
    have hfl' : ((fieldLines r ue).flatMap leaf).length ≤ 956 := by split at hfl <;> omega
    clear hfl
    obtain ⟨p2, s2, x2, z2, w2, y2, _⟩ := sValue_tells r hp.dlen hp.lvar s1 z1
    rw [x2, ok_bind]
    dsimp only
    rw [y2, ok_bind]
    refine (encode_cut e _ he (upToNul_nonul _)).bind fun q hq => ?_
    obtain ⟨e', ve⟩ := q
    obtain ⟨_, hve⟩ := hq
    dsimp only at hve ⊢
    have hvl : ve.length < 768 := hve.choose_spec.2.2.1
    refine put_bind hb2.holds _ (by simp only [leaf_length, List.length_append, List.length_cons, List.length_nil]; omega) fun b3 hb3 => ?_
    have h3 : (openTag id frame ++ (fieldLines r ue).flatMap leaf ++ leaf (cs! "Value", ve)).length ≤ 2000 := by
      simp only [leaf_length, List.length_append, List.length_cons, List.length_nil]; omega
    have stampRun : Runs (stampXml b3 stamp) (fun b => Text b 8192 (openTag id frame ++ (fieldLines r ue).flatMap leaf ++
        leaf (cs! "Value", ve) ++ stampLines stamp)) := by
      cases stamp with
      | none => exact .ok (by simpa [stampLines] using hb3)
      | some ts =>
        obtain ⟨_, hts⟩ := hst ts rfl
        show Runs (b3.put (cs! "        <Timestamp>" ++ ts ++ cs! "</Timestamp>\n")) _
        rw [e2]
        exact put_last hb3.holds _ (by simp only [leaf_length, List.length_cons, List.length_nil]; omega) fun b h => h
    refine stampRun.bind fun b4 hb4 => ?_
    have h4 : (stampLines stamp).length ≤ 60 := by
      cases stamp with
      | none => simp [stampLines]
      | some ts =>
        obtain ⟨_, hts⟩ := hst ts rfl
        simp only [stampLines, leaf_length, List.length_cons, List.length_nil]; omega
    refine put_bind hb4.holds _ (by simp only [List.length_append] at h3 ⊢; simp only [List.length_cons, List.length_nil]; omega) fun b5 hb5 => ?_
    rw [← rawGroup_render] at hb5
    have hm : b5.mem.length = SBuf.recordXml.cap := hb5.1
    refine .ok ⟨rfl, sized_set z2 _ _ hm, ?_, ?_⟩
    · intro b hb
      have hb1 : b ≠ .recordXml := fun h => hb (h ▸ List.mem_cons_self ..)
      have hb2 : b ∉ [SBuf.value, SBuf.decode] := fun h => hb (by
        simp only [List.mem_cons, List.not_mem_nil, or_false] at h
        rcases h with h | h <;> subst h <;> simp [recordWrites])
      have hb3 : b ∉ fieldWrites := fun h => hb (List.mem_cons_of_mem _ (List.mem_cons_of_mem _ (List.mem_cons_of_mem _ h)))
      dsimp only
      rw [set_other _ _ hb1, w2 b hb2, w1 b hb3]
    · dsimp only
      rw [set_same, text_cstr hb5 (rawGroup_nonul id frame r ue ve stamp (hue.nonul hp.unit0) (hve.nonul (upToNul_nonul _)) (fun t h => (hst t h).1)),
        htx, hue.same hue0, hve.same hve0]
  obtain ⟨⟨p1, s1⟩, k1, k2, k3, k4, k5⟩ := key
  dsimp only at k2 k3 k4 k5
  subst k2
  exact ⟨_, _, k1, k3, k4, k5, by simp⟩

end Mbus
