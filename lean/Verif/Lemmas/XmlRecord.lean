import Verif.Lemmas.Xml
/- The XML of one record. -/
namespace Mbus
open Spec

theorem put_last {b : XBuf} {n : Nat} {t : List Byte} {Q : XBuf → Prop} (h : Holds b n t) (s : List Byte)
    (hl : t.length + s.length < n) (hk : ∀ b', Text b' n (t ++ s) → Q b') : Runs (b.put s) Q := by
  obtain ⟨b', e, h'⟩ := put_runs h s hl
  exact ⟨b', e, hk b' h'⟩

/-- The opening tag. -/
def openTag (id : Nat) (frame : Option Nat) : List Byte :=
  cs! "    <DataRecord" ++ ((cs! "id", dec id) :: (match frame with | some k => [(cs! "frame", dec k)] | none => [])).flatMap attr ++
    cs! ">\n"

theorem openTag_length (id : Nat) (frame : Option Nat) (hid : id < 2 ^ 31) (hf : ∀ k, frame = some k → k < 2 ^ 31) :
    (openTag id frame).length ≤ 52 := by
  have h1 := decDigits_31 id hid
  cases frame with
  | none => simp [openTag, attr, dec]; omega
  | some k =>
    have h2 := decDigits_31 k (hf k rfl)
    simp [openTag, attr, dec]
    omega

theorem recordOpen_runs (junk : Nat → Byte) (id : Nat) (frame : Option Nat) (hid : id < 2 ^ 31)
    (hf : ∀ k, frame = some k → k < 2 ^ 31) :
    Runs (recordOpenXml ⟨malloc junk 8192, 0⟩ id (frameArg frame)) (fun b => Text b 8192 (openTag id frame)) := by
  have hl := openTag_length id frame hid hf
  unfold recordOpenXml
  cases frame with
  | none =>
    rw [if_neg (by simp [frameArg])]
    have e : cs! "    <DataRecord id=\"" ++ fmtInt (id : Int) ++ cs! "\">\n" = openTag id none := by
      simp [openTag, attr, dec, fmtInt_nat]
    rw [e]
    exact put_last (holds_new _ _) _ (by simp; omega) fun b h => by simpa using h
  | some k =>
    rw [if_pos (by simp [frameArg])]
    have e : cs! "    <DataRecord id=\"" ++ fmtInt (id : Int) ++ cs! "\" frame=\"" ++ fmtInt (frameArg (some k)) ++ cs! "\">\n" =
        openTag id (some k) := by
      simp [openTag, attr, dec, fmtInt_nat, frameArg]
    rw [e]
    exact put_last (holds_new _ _) _ (by simp; omega) fun b h => by simpa using h

/-- The lines of tariff and device. -/
def tariffLines (r : Record) : List (List Byte × List Byte) :=
  let difes := r.dife.bytes.take r.ndife
  if difes = [] then [] else [(cs! "Tariff", dec (tariffOf difes)), (cs! "Device", dec (deviceOf difes))]

theorem difes_nil (r : Record) : r.dife.bytes.take r.ndife = [] ↔ r.ndife = 0 := by
  rw [List.take_eq_nil_iff]
  constructor
  · rintro (h | h)
    · exact h
    · have := congrArg List.length h
      simp at this
  · exact .inl

theorem tariffLines_length (r : Record) (h : r.ndife ≤ 8) : ((tariffLines r).flatMap leaf).length ≤ 61 := by
  have h8 := tariff_short (r.dife.bytes.take r.ndife) (by simp; omega)
  unfold tariffLines
  dsimp only
  split
  · simp
  · simp [leaf_length, dec]
    omega

theorem tariff_runs {b : XBuf} {t : List Byte} (hb : Text b 8192 t) (r : Record) (h : r.ndife ≤ 8) (hl : t.length ≤ 4000) :
    Runs (tariffXml b r) (fun b => Text b 8192 (t ++ (tariffLines r).flatMap leaf)) := by
  obtain ⟨h1, h2⟩ := C33_tariff_device r (by omega)
  have h8 := tariff_short (r.dife.bytes.take r.ndife) (by simp; omega)
  have e1 : ∀ x, cs! "        <Tariff>" ++ x ++ cs! "</Tariff>\n" = leaf (cs! "Tariff", x) := fun x => by simp [leaf]
  have e2 : ∀ x, cs! "        <Device>" ++ x ++ cs! "</Device>\n" = leaf (cs! "Device", x) := fun x => by simp [leaf]
  unfold tariffXml
  rw [h1, ok_bind]
  simp only [e1, e2]
  unfold tariffLines
  by_cases h0 : r.ndife = 0
  · rw [if_pos h0, if_neg (by decide)]
    rw [if_pos ((difes_nil r).mpr h0)]
    exact .ok (by simpa using hb)
  · rw [if_neg h0, if_pos (by omega), if_neg (by rw [difes_nil r]; exact h0), fmtInt_nat]
    refine put_bind hb.holds _ (by simp [leaf_length]; omega) fun b1 hb1 => ?_
    rw [h2, ok_bind, if_neg h0, fmtInt_nat]
    refine put_last hb1.holds _ (by simp [leaf_length]; omega) fun b2 hb2 => ?_
    simpa [dec] using hb2

/-- The lines before the value. -/
def fieldLines (r : Record) (ue : List Byte) : List (List Byte × List Byte) :=
  (cs! "Function", functionLabel r) ::
  (if Special r then []
   else (cs! "StorageNumber", dec (storageOf r.dif (r.dife.bytes.take r.ndife))) :: tariffLines r ++ [(cs! "Unit", ue)])

theorem fieldLines_length (r : Record) (ue : List Byte) (hs : ¬ Special r → StorageOk r) :
    ((fieldLines r ue).flatMap leaf).length ≤ if Special r then 54 else 188 + ue.length := by
  have hf := (functionLabel_short r).1
  unfold fieldLines
  by_cases h : Special r
  · rw [if_pos h, if_pos h]
    simp [leaf_length]
    omega
  · rw [if_neg h, if_neg h]
    obtain ⟨h8, hst⟩ := hs h
    have h2 := decDigits_31 _ hst
    have h3 := tariffLines_length r h8
    simp only [List.flatMap_cons, List.flatMap_append, List.flatMap_nil, List.length_append, leaf_length, dec, List.cons_append,
      List.length_cons, List.length_nil]
    omega

theorem fields_runs {b : XBuf} {t : List Byte} (hb : Text b 8192 t) (hl : t.length ≤ 2000) (e : List Byte) (he : e.length = 768)
    (r : Record) (u : List Byte) (hp : Printable r u) :
    Runs (recordFieldsXml e b r) (fun p => p.2.length = 768 ∧ ∃ ue, EscapedCut u ue ∧
      Text p.1 8192 (t ++ (fieldLines r ue).flatMap leaf)) := by
  have hf := functionLabel_short r
  have e1 : ∀ x, cs! "        <Function>" ++ x ++ cs! "</Function>\n" = leaf (cs! "Function", x) := fun x => by simp [leaf]
  have e2 : ∀ x, cs! "        <StorageNumber>" ++ x ++ cs! "</StorageNumber>\n" = leaf (cs! "StorageNumber", x) := fun x => by simp [leaf]
  have e3 : ∀ x, cs! "        <Unit>" ++ x ++ cs! "</Unit>\n" = leaf (cs! "Unit", x) := fun x => by simp [leaf]
  unfold recordFieldsXml
  simp only [e1, e2, e3]
  have cut0 : ∃ ue, EscapedCut u ue := by
    obtain ⟨p, _, _, h⟩ := encode_cut e u he hp.unit0
    exact ⟨_, h⟩
  obtain ⟨ue, hue⟩ := cut0
  by_cases h0F : r.dif = 0x0F
  · rw [if_pos h0F]
    refine put_bind hb.holds _ (by simp; omega) fun b1 hb1 => .ok ⟨he, ue, hue, ?_⟩
    have hsp : Special r := .inl h0F
    simpa [fieldLines, hsp, functionLabel, h0F, leaf] using hb1
  · rw [if_neg h0F]
    by_cases h1F : r.dif = 0x1F
    · rw [if_pos h1F]
      refine put_bind hb.holds _ (by simp; omega) fun b1 hb1 => .ok ⟨he, ue, hue, ?_⟩
      have hsp : Special r := .inr h1F
      simpa [fieldLines, hsp, functionLabel, h1F, leaf] using hb1
    · rw [if_neg h1F]
      have hsp : ¬ Special r := fun h => h.elim h0F h1F
      obtain ⟨h8, hst⟩ := hp.storage hsp
      have h2 := decDigits_31 _ hst
      have h3 := tariffLines_length r h8
      rw [functionLabel_ordinary r hsp]
      refine (encodeInto_all e _ hf.2.1 (by rw [hf.2.2]; omega)).bind fun q hq => ?_
      obtain ⟨e', t'⟩ := q
      obtain ⟨he', rfl⟩ := hq
      dsimp only at he' ⊢
      rw [hf.2.2]
      refine put_bind hb.holds _ (by simp [leaf_length]; omega) fun b1 hb1 => ?_
      rw [C33_storage_partial r h8 hst, ok_bind, fmtInt_nat]
      refine put_bind hb1.holds _ (by simp [leaf_length]; omega) fun b2 hb2 => ?_
      refine (tariff_runs hb2 r h8 (by simp [leaf_length]; omega)).bind fun b3 hb3 => ?_
      rw [hp.unit, ok_bind]
      refine (encode_cut e' u (by omega) hp.unit0).bind fun q hq => ?_
      obtain ⟨e'', ue'⟩ := q
      obtain ⟨he'', hue'⟩ := hq
      dsimp only at he'' hue' ⊢
      have hul : ue'.length < 768 := hue'.choose_spec.2.2.1
      refine put_bind hb3.holds _ (by simp [leaf_length] at h3 ⊢; omega) fun b4 hb4 => .ok ⟨he'', ue', hue', ?_⟩
      simpa [fieldLines, hsp, dec] using hb4

theorem upToNul_nonul (l : List Byte) : (0 : Byte) ∉ upToNul l := by
  intro h0
  have := List.all_eq_true.mp (List.all_takeWhile (p := fun x : Byte => decide (x ≠ 0)) (l := l)) 0 h0
  simp at this

/-- The line of the time stamp. -/
def stampLines : Option (List Byte) → List Byte
  | some t => leaf (cs! "Timestamp", t)
  | none => []

theorem rawGroup_render (id : Nat) (frame : Option Nat) (r : Record) (ue ve : List Byte) (stamp : Option (List Byte)) :
    (rawGroup id frame r ue ve stamp).render = openTag id frame ++ (fieldLines r ue).flatMap leaf ++ leaf (cs! "Value", ve) ++
      stampLines stamp ++ cs! "    </DataRecord>\n\n" := by
  cases stamp <;> cases frame <;> by_cases h : Special r <;>
    simp [rawGroup, Group.render, openTag, fieldLines, tariffLines, stampLines, h]

/-- The XML of one record. -/
theorem recordXml_runs (junk : Nat → Byte) (r : Record) (u : List Byte) (hp : Printable r u) (stamp : Option (List Byte))
    (hst : StampOk stamp) (id : Nat) (hid : id < 2 ^ 31) (frame : Option Nat) (hf : ∀ k, frame = some k → k < 2 ^ 31) :
    ∃ ue ve, EscapedCut u ue ∧ EscapedCut (upToNul (shown r)) ve ∧
      recordXml junk r stamp id (frameArg frame) = .ok (rawGroup id frame r ue ve stamp).render := by
  suffices h : Runs (recordXml junk r stamp id (frameArg frame)) (fun t => ∃ ue ve, EscapedCut u ue ∧
      EscapedCut (upToNul (shown r)) ve ∧ t = (rawGroup id frame r ue ve stamp).render) by
    obtain ⟨t, h1, ue, ve, h2, h3, rfl⟩ := h
    exact ⟨ue, ve, h2, h3, h1⟩
  have hol := openTag_length id frame hid hf
  have e1 : ∀ x, cs! "        <Value>" ++ x ++ cs! "</Value>\n" = leaf (cs! "Value", x) := fun x => by simp [leaf]
  have e2 : ∀ x, cs! "        <Timestamp>" ++ x ++ cs! "</Timestamp>\n" = leaf (cs! "Timestamp", x) := fun x => by simp [leaf]
  unfold recordXml
  simp only [e1]
  refine (recordOpen_runs _ id frame hid hf).bind fun b1 hb1 => ?_
  refine (fields_runs hb1 (by omega) _ (by simp) r u hp).bind fun q hq => ?_
  obtain ⟨b2, e⟩ := q
  obtain ⟨he, ue, hue, hb2⟩ := hq
  dsimp only at he hb2 ⊢
  have hul : ue.length < 768 := hue.choose_spec.2.2.1
  have hfl := fieldLines_length r ue hp.storage
  have hfl' : ((fieldLines r ue).flatMap leaf).length ≤ 956 := by split at hfl <;> omega
  clear hfl
  rw [recordValue_shown _ r (by simp) hp.dlen hp.lvar, ok_bind]
  refine (encode_cut e _ he (upToNul_nonul _)).bind fun q hq => ?_
  obtain ⟨e', ve⟩ := q
  obtain ⟨_, hve⟩ := hq
  dsimp only at hve ⊢
  have hvl : ve.length < 768 := hve.choose_spec.2.2.1
  refine put_bind hb2.holds _ (by simp only [leaf_length, List.length_append, List.length_cons, List.length_nil]; omega) fun b3 hb3 => ?_
  have h3 : (openTag id frame ++ (fieldLines r ue).flatMap leaf ++ leaf (cs! "Value", ve)).length ≤ 2000 := by
    simp only [leaf_length, List.length_append, List.length_cons, List.length_nil]; omega
  have stampRun : Runs (stampXml b3 stamp) (fun b => Text b 8192 (openTag id frame ++ (fieldLines r ue).flatMap leaf ++
      leaf (cs! "Value", ve) ++ stampLines stamp)) := by
    cases stamp with
    | none => exact .ok (by simpa [stampLines] using hb3)
    | some ts =>
      obtain ⟨_, hts⟩ := hst ts rfl
      show Runs (b3.put (cs! "        <Timestamp>" ++ ts ++ cs! "</Timestamp>\n")) _
      rw [e2]
      exact put_last hb3.holds _ (by simp only [leaf_length, List.length_cons, List.length_nil]; omega) fun b h => h
  refine stampRun.bind fun b4 hb4 => ?_
  have h4 : (stampLines stamp).length ≤ 60 := by
    cases stamp with
    | none => simp [stampLines]
    | some ts =>
      obtain ⟨_, hts⟩ := hst ts rfl
      simp only [stampLines, leaf_length, List.length_cons, List.length_nil]; omega
  refine put_bind hb4.holds _ (by simp only [List.length_append] at h3 ⊢; simp only [List.length_cons, List.length_nil]; omega) fun b5 hb5 => ?_
  rw [← rawGroup_render] at hb5
  exact ⟨_, text_cstr hb5 (rawGroup_nonul id frame r ue ve stamp (hue.nonul hp.unit0) (hve.nonul (upToNul_nonul _))
    (fun t h => (hst t h).1)), ue, ve, hue, hve, rfl⟩

/-- Length of the XML of one record. -/
theorem rawGroup_length (id : Nat) (frame : Option Nat) (hid : id < 2 ^ 31) (hf : ∀ k, frame = some k → k < 2 ^ 31) (r : Record)
    (ue ve : List Byte) (stamp : Option (List Byte)) (hst : StampOk stamp) (hs : ¬ Special r → StorageOk r) :
    (rawGroup id frame r ue ve stamp).render.length ≤ if Special r then 210 + ve.length else 340 + ue.length + ve.length := by
  have hol := openTag_length id frame hid hf
  have hfl := fieldLines_length r ue hs
  have h4 : (stampLines stamp).length ≤ 52 := by
    cases stamp with
    | none => simp [stampLines]
    | some ts =>
      obtain ⟨_, hts⟩ := hst ts rfl
      simp only [stampLines, leaf_length, List.length_cons, List.length_nil]; omega
  rw [rawGroup_render]
  simp only [List.length_append, leaf_length, List.length_cons, List.length_nil]
  split at hfl <;> simp only [*, if_true, if_false] <;> omega

end Mbus
