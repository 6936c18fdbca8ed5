import Verif.Lemmas.XmlDoc
import Verif.Props.Units
/- The XML of fixed-format data and of errors; well-formedness. -/
namespace Mbus
open Spec

/-- A label that is printed completely. -/
def Short (l : List Byte) : Prop := (escape l).length ≤ 200 ∧ (0 : Byte) ∉ l
instance (l : List Byte) : Decidable (Short l) := by unfold Short; infer_instance

theorem caseOf_all (P : List Byte → Prop) (k : Nat) (t : List (Nat × List Byte)) (d : List Byte) (h : ∀ p ∈ t, P p.2) (hd : P d) :
    P ((caseOf k t).getD d) := by
  unfold caseOf
  induction t with
  | nil => exact hd
  | cons p t ih =>
    rw [List.lookup_cons]
    cases e : k == p.1 with
    | true => exact h p (List.mem_cons_self ..)
    | false => exact ih fun q hq => h q (List.mem_cons_of_mem _ hq)

theorem fixed_short (x : FixedData) (u st : Int) : Short (fixedMedium x) ∧ Short (fixedUnit u) ∧ Short (fixedFunction st) := by
  obtain ⟨h1, h2, h3⟩ := C64_fixed x u st
  rw [h1, h2, h3]
  refine ⟨caseOf_all Short _ _ _ (by decide +kernel) (by decide +kernel), caseOf_all Short _ _ _ (by decide +kernel) (by decide +kernel), ?_⟩
  unfold fixedFunctionText
  split <;> decide +kernel

theorem padZero_nonul (w : Nat) (t : List Byte) (h : (0 : Byte) ∉ t) : (0 : Byte) ∉ padZero w t := by
  unfold padZero
  simp only [List.mem_append, List.mem_replicate, h, or_false, not_and]
  intro _
  decide

theorem error_short (e : Int) : Short (errorLookup e) := by
  rw [(C64_medium_error 0 e Record.new).2.1]
  have hd : Short (cs! "Unknown error (0x" ++ fmtHexInt e ++ cs! ")") := by
    have h1 := fmtHexInt_length e
    have h2 := (escape_length (fmtHexInt e)).2
    have h3 : (0 : Byte) ∉ fmtHexInt e := padZero_nonul _ _ (hexDigits_nonul _)
    constructor
    · rw [escape_append, escape_append, List.length_append, List.length_append]
      have e1 : (escape (cs! "Unknown error (0x")).length = 17 := by decide +kernel
      have e2 : (escape (cs! ")")).length = 1 := by decide +kernel
      omega
    · simp only [List.mem_append, h3, or_false, not_or]
      decide
  unfold errorText
  split
  · exact hd
  · exact caseOf_all Short _ _ _ (by decide +kernel) hd

theorem fmtInt_leInt (v : Buf 4) : (fmtInt (leInt v.bytes)).length ≤ 20 := fmtInt_length64 _ (leInt_bound _ (by simp))

theorem counter_runs (st : Byte) (v : Buf 4) : fixedCounterText st v.bytes = .ok (counterText st v.bytes) ∧
    (counterText st v.bytes).length ≤ 20 := by
  have hb : (st &&& 0x80 = 0) ↔ st.toNat < 128 :=
    forall_byte (P := fun b => (b &&& 0x80 = 0) ↔ b.toNat < 128) (by decide +kernel) st
  obtain ⟨h1, h2⟩ := bcdDecodeHex4 v
  unfold fixedCounterText counterText
  by_cases h : st.toNat < 128
  · rw [if_pos (hb.mpr h), if_pos h, h1, ok_bind, toNat_mod64 _ h2]
    have := hexDigits_8 _ h2
    exact ⟨rfl, by unfold hex; omega⟩
  · rw [if_neg (fun c => h (hb.mp c)), if_neg h, C12_int_decode _ 4 (by decide) (by decide) (by simp), ok_bind,
      List.take_of_length_le (by simp)]
    exact ⟨rfl, fmtInt_leInt v⟩

theorem encode_short {e l : List Byte} (he : e.length = 256) (h : Short l) :
    Runs (encodeInto e l) (fun p => p.1.length = 256 ∧ p.2 = escape l) := by
  have := encodeInto_all e l h.2 (by have := h.1; omega)
  rwa [he] at this

set_option maxRecDepth 8000 in
/-- The document of a fixed-data telegram. -/
theorem fixedXml_runs (junk : Nat → Byte) (x : FixedData) : Runs (fixedXml junk x) (fun m =>
    document (fixedGroups x (fixedMedium x) (fixedFunction x.status.toNat) (fixedUnit x.cnt1Type.toNat) (fixedUnit x.cnt2Type.toNat)) ++ [0] <+: m) := by
  obtain ⟨hm, hu1, hf⟩ := fixed_short x x.cnt1Type.toNat x.status.toNat
  obtain ⟨_, hu2, _⟩ := fixed_short x x.cnt2Type.toNat x.status.toNat
  obtain ⟨hid, hidlt⟩ := bcdDecodeHex4 x.idBcd
  have hidl := hexDigits_8 _ hidlt
  obtain ⟨hc1, hl1⟩ := counter_runs x.status x.cnt1Val
  obtain ⟨hc2, hl2⟩ := counter_runs x.status x.cnt2Val
  have hv := decDigits_byte x.txCnt
  have g1 := hm.1
  have g2 := hu1.1
  have g3 := hf.1
  have g4 := hu2.1
  unfold fixedXml
  have e1 : ∀ t, cs! "        <Id>" ++ t ++ cs! "</Id>\n" = leaf (cs! "Id", t) := fun t => by simp [leaf]
  have e2 : ∀ t, cs! "        <Medium>" ++ t ++ cs! "</Medium>\n" = leaf (cs! "Medium", t) := fun t => by simp [leaf]
  have e3 : ∀ t, cs! "        <AccessNumber>" ++ t ++ cs! "</AccessNumber>\n" = leaf (cs! "AccessNumber", t) := fun t => by simp [leaf]
  have e4 : ∀ t, cs! "        <Status>" ++ t ++ cs! "</Status>\n" = leaf (cs! "Status", t) := fun t => by simp [leaf]
  have e5 : ∀ t, cs! "        <Function>" ++ t ++ cs! "</Function>\n" = leaf (cs! "Function", t) := fun t => by simp [leaf]
  have e6 : ∀ t, cs! "        <Unit>" ++ t ++ cs! "</Unit>\n" = leaf (cs! "Unit", t) := fun t => by simp [leaf]
  have e7 : ∀ t, cs! "        <Value>" ++ t ++ cs! "</Value>\n" = leaf (cs! "Value", t) := fun t => by simp [leaf]
  simp only [e1, e2, e3, e4, e5, e6, e7]
  refine put_bind (holds_new _ _) _ (by simp [XML_PI]) fun b1 h1 => ?_
  refine put_bind h1.holds _ (by simp [XML_PI]) fun b2 h2 => ?_
  refine put_bind h2.holds _ (by simp [XML_PI]) fun b3 h3 => ?_
  rw [hid, ok_bind, toNat_mod64 _ hidlt]
  refine put_bind h3.holds _ (by simp [XML_PI, leaf_length]; omega) fun b4 h4 => ?_
  refine (encode_short (by simp) hm).bind fun q hq => ?_
  obtain ⟨a1, t⟩ := q
  obtain ⟨l1, rfl⟩ := hq
  refine put_bind h4.holds _ (by simp [XML_PI, leaf_length]; omega) fun b5 h5 => ?_
  rw [fmtInt_nat]
  refine put_bind h5.holds _ (by simp [XML_PI, leaf_length]; omega) fun b6 h6 => ?_
  refine put_bind h6.holds _ (by simp [XML_PI, leaf_length]; omega) fun b7 h7 => ?_
  refine put_bind h7.holds _ (by simp [XML_PI, leaf_length]; omega) fun b8 h8 => ?_
  refine put_bind h8.holds _ (by simp [XML_PI, leaf_length]; omega) fun b9 h9 => ?_
  refine (encode_short l1 hf).bind fun q hq => ?_
  obtain ⟨a2, t⟩ := q
  obtain ⟨l2, rfl⟩ := hq
  refine put_bind h9.holds _ (by simp [XML_PI, leaf_length]; omega) fun b10 h10 => ?_
  refine (encode_short l2 hu1).bind fun q hq => ?_
  obtain ⟨a3, t⟩ := q
  obtain ⟨l3, rfl⟩ := hq
  refine put_bind h10.holds _ (by simp [XML_PI, leaf_length]; omega) fun b11 h11 => ?_
  rw [hc1, ok_bind]
  refine put_bind h11.holds _ (by simp [XML_PI, leaf_length]; omega) fun b12 h12 => ?_
  refine put_bind h12.holds _ (by simp [XML_PI, leaf_length]; omega) fun b13 h13 => ?_
  refine put_bind h13.holds _ (by simp [XML_PI, leaf_length]; omega) fun b14 h14 => ?_
  refine (encode_short l3 hf).bind fun q hq => ?_
  obtain ⟨a4, t⟩ := q
  obtain ⟨l4, rfl⟩ := hq
  refine put_bind h14.holds _ (by simp [XML_PI, leaf_length]; omega) fun b15 h15 => ?_
  refine (encode_short l4 hu2).bind fun q hq => ?_
  obtain ⟨a5, t⟩ := q
  obtain ⟨l5, rfl⟩ := hq
  refine put_bind h15.holds _ (by simp [XML_PI, leaf_length]; omega) fun b16 h16 => ?_
  rw [hc2, ok_bind]
  refine put_bind h16.holds _ (by simp [XML_PI, leaf_length]; omega) fun b17 h17 => ?_
  refine put_bind h17.holds _ (by simp [XML_PI, leaf_length]; omega) fun b18 h18 => ?_
  refine put_bind h18.holds _ (by simp [XML_PI, leaf_length]; omega) fun b19 h19 => .ok ?_
  have := h19.2.2
  simpa [document, fixedGroups, Group.render, attr, XML_PI, hex, dec] using this

/-- The document of an error telegram. -/
theorem errorXml_runs (junk : Nat → Byte) (e : Int) :
    Runs (errorXml junk e) (fun m => document [errorGroup (errorLookup e)] ++ [0] <+: m) := by
  have hs := error_short e
  have g1 := hs.1
  unfold errorXml
  have e1 : ∀ t, cs! "        <Error>" ++ t ++ cs! "</Error>\n" = leaf (cs! "Error", t) := fun t => by simp [leaf]
  simp only [e1]
  refine put_bind (holds_new _ _) _ (by simp [XML_PI]) fun b1 h1 => ?_
  refine put_bind h1.holds _ (by simp [XML_PI]) fun b2 h2 => ?_
  refine put_bind h2.holds _ (by simp [XML_PI]) fun b3 h3 => ?_
  refine (encode_short (by simp) hs).bind fun q hq => ?_
  obtain ⟨a1, t⟩ := q
  obtain ⟨l1, rfl⟩ := hq
  refine put_bind h3.holds _ (by simp [XML_PI, leaf_length]; omega) fun b4 h4 => ?_
  refine put_bind h4.holds _ (by simp [XML_PI, leaf_length]; omega) fun b5 h5 => ?_
  refine put_bind h5.holds _ (by simp [XML_PI, leaf_length]; omega) fun b6 h6 => .ok ?_
  have := h6.2.2
  simpa [document, errorGroup, Group.render, XML_PI] using this

/-! ### well-formedness -/

theorem charData_append {a b : List Byte} (ha : CharData a) (hb : CharData b) : CharData (a ++ b) := by
  induction ha with
  | nil => exact hb
  | char h1 h2 h3 _ ih => exact .char h1 h2 h3 ih
  | entity h1 _ ih => rw [List.append_assoc]; exact .entity h1 ih

/-- A character that may appear as it is. -/
def Harmless (c : Byte) : Prop := c ≠ 60 ∧ c ≠ 38 ∧ (32 ≤ c.toNat ∨ c = 10)
instance (c : Byte) : Decidable (Harmless c) := by unfold Harmless; infer_instance

theorem charData_all (l : List Byte) (h : ∀ c ∈ l, Harmless c) : CharData l := by
  induction l with
  | nil => exact .nil
  | cons c l ih =>
    obtain ⟨h1, h2, h3⟩ := h c (List.mem_cons_self ..)
    exact .char h1 h2 h3 (ih fun d hd => h d (List.mem_cons_of_mem _ hd))

theorem charData_escape1 (c : Byte) : CharData (escape1 c) := by
  unfold escape1
  split
  · exact .entity (e := cs! "&amp;") (t := []) (by decide) .nil
  · split
    · exact .entity (e := cs! "&lt;") (t := []) (by decide) .nil
    · split
      · exact .entity (e := cs! "&gt;") (t := []) (by decide) .nil
      · split
        · exact .entity (e := cs! "&quot;") (t := []) (by decide) .nil
        · split
          · exact .char (by decide) (by decide) (by decide) .nil
          · exact .char (by assumption) (by assumption) (by omega) .nil

theorem charData_escape (s : List Byte) : CharData (escape s) := by
  induction s with
  | nil => exact .nil
  | cons c s ih => rw [escape_cons]; exact charData_append (charData_escape1 c) ih

/-- A group all of whose names are names and whose texts are character data. -/
structure GroupOk (g : Group) : Prop where
  name : IsName g.name
  attrs : ∀ a ∈ g.attrs, IsName a.1 ∧ CharData a.2 ∧ (34 : Byte) ∉ a.2
  leaves : ∀ l ∈ g.leaves, IsName l.1 ∧ CharData l.2

theorem leaf_content (l : List Byte × List Byte) (h : IsName l.1 ∧ CharData l.2) : Content (leaf l) := by
  have h1 : Content (cs! "<" ++ l.1 ++ ([] : List (List Byte × List Byte)).flatMap attr ++ cs! ">" ++ l.2 ++ cs! "</" ++ l.1 ++ cs! ">") :=
    .elem h.1 (by simp) (.text h.2)
  have h2 : Content (cs! "        ") := .text (charData_all _ (by decide))
  have h3 : Content (cs! "\n") := .text (charData_all _ (by decide))
  have := (h2.append h1).append h3
  simpa [leaf] using this

theorem leaves_content (ls : List (List Byte × List Byte)) (h : ∀ l ∈ ls, IsName l.1 ∧ CharData l.2) : Content (ls.flatMap leaf) := by
  induction ls with
  | nil => exact .text .nil
  | cons l ls ih =>
    rw [List.flatMap_cons]
    exact (leaf_content l (h l (List.mem_cons_self ..))).append (ih fun x hx => h x (List.mem_cons_of_mem _ hx))

theorem group_content (g : Group) (h : GroupOk g) : Content g.render := by
  have h0 : Content (cs! "\n" ++ g.leaves.flatMap leaf ++ cs! "    ") :=
    ((Content.text (charData_all (cs! "\n") (by decide))).append (leaves_content g.leaves h.leaves)).append
      (.text (charData_all (cs! "    ") (by decide)))
  have h1 : Content (cs! "<" ++ g.name ++ g.attrs.flatMap attr ++ cs! ">" ++ (cs! "\n" ++ g.leaves.flatMap leaf ++ cs! "    ") ++ cs! "</" ++
      g.name ++ cs! ">") := .elem h.name h.attrs h0
  have h2 : Content (cs! "    ") := .text (charData_all _ (by decide))
  have h3 : Content (cs! "\n\n") := .text (charData_all _ (by decide))
  have := (h2.append h1).append h3
  simpa [Group.render] using this

theorem groups_content (gs : List Group) (h : ∀ g ∈ gs, GroupOk g) : Content (gs.flatMap Group.render) := by
  induction gs with
  | nil => exact .text .nil
  | cons g gs ih =>
    rw [List.flatMap_cons]
    exact (group_content g (h g (List.mem_cons_self ..))).append (ih fun x hx => h x (List.mem_cons_of_mem _ hx))

theorem document_wellFormed (gs : List Group) (h : ∀ g ∈ gs, GroupOk g) : WellFormedXml (document gs) := by
  refine ⟨cs! "MBusData", cs! "\n\n" ++ gs.flatMap Group.render, by decide,
    (Content.text (charData_all (cs! "\n\n") (by decide))).append (groups_content gs h), ?_⟩
  simp [document]

theorem decDigits_harmless (n : Nat) : ∀ c ∈ decDigits n, Harmless c ∧ c ≠ 34 := by
  have key : ∀ k : Fin 10, Harmless (UInt8.ofNat (48 + k.val)) ∧ UInt8.ofNat (48 + k.val) ≠ 34 := by decide +kernel
  fun_induction decDigits n with
  | case1 n h =>
    intro c hc
    rw [List.mem_singleton.mp hc]
    exact key ⟨n, h⟩
  | case2 n h ih =>
    intro c hc
    rcases List.mem_append.mp hc with hc | hc
    · exact ih c hc
    · rw [List.mem_singleton.mp hc]
      exact key ⟨n % 10, Nat.mod_lt _ (by decide)⟩

theorem hexDigits_harmless (n : Nat) : ∀ c ∈ hexDigits n, Harmless c := by
  have key : ∀ k : Fin 16, Harmless (hexDigitU k.val) := by decide +kernel
  fun_induction hexDigits n with
  | case1 n h =>
    intro c hc
    rw [List.mem_singleton.mp hc]
    exact key ⟨n, h⟩
  | case2 n h ih =>
    intro c hc
    rcases List.mem_append.mp hc with hc | hc
    · exact ih c hc
    · rw [List.mem_singleton.mp hc]
      exact key ⟨n % 16, Nat.mod_lt _ (by decide)⟩

theorem charData_dec (n : Nat) : CharData (dec n) := charData_all _ fun c hc => (decDigits_harmless n c hc).1
theorem charData_hex (n : Nat) : CharData (hex n) := charData_all _ fun c hc => hexDigits_harmless n c hc
theorem charData_fmtHex2 (b : Byte) : CharData (fmtHex2 b) := charData_all _
  (forall_byte (P := fun b => ∀ c ∈ fmtHex2 b, Harmless c) (by decide +kernel) b)

theorem charData_fmtInt (z : Int) : CharData (fmtInt z) := by
  have h := charData_all _ fun c hc => (decDigits_harmless z.natAbs c hc).1
  unfold fmtInt
  split
  · exact .char (by decide) (by decide) (by decide) h
  · exact h

theorem charData_flag (n : Nat) : CharData (flagLetters n) := by
  have key : ∀ k : Fin 32, Harmless (UInt8.ofNat (64 + k.val)) := by decide +kernel
  apply charData_all
  intro c hc
  simp only [flagLetters, List.mem_cons, List.not_mem_nil, or_false] at hc
  rcases hc with rfl | rfl | rfl
  · exact key ⟨n / 1024 % 32, Nat.mod_lt _ (by decide)⟩
  · exact key ⟨n / 32 % 32, Nat.mod_lt _ (by decide)⟩
  · exact key ⟨n % 32, Nat.mod_lt _ (by decide)⟩

local macro "isname" : tactic => `(tactic| first | decide | (dsimp only; decide))

theorem slaveGroup_ok (h : VarHeader) (p m : List Byte) : GroupOk (slaveGroup h p m) := by
  refine ⟨by simp only [slaveGroup]; decide, by simp [slaveGroup], ?_⟩
  intro l hl
  simp only [slaveGroup, List.mem_cons, List.not_mem_nil, or_false] at hl
  rcases hl with rfl | rfl | rfl | rfl | rfl | rfl | rfl | rfl
  · exact ⟨by isname, charData_hex _⟩
  · exact ⟨by isname, charData_flag _⟩
  · exact ⟨by isname, charData_dec _⟩
  · exact ⟨by isname, charData_escape _⟩
  · exact ⟨by isname, charData_escape _⟩
  · exact ⟨by isname, charData_dec _⟩
  · exact ⟨by isname, charData_fmtHex2 _⟩
  · refine ⟨by isname, ?_⟩
    rw [signature_eq]
    exact charData_append (charData_fmtHex2 _) (charData_fmtHex2 _)

theorem charData_label (r : Record) : CharData (functionLabel r) := by
  rw [← (functionLabel_short r).2.2]
  exact charData_escape _

theorem recordGroup_ok (id : Nat) (frame : Option Nat) (r : Record) (u : List Byte) (stamp : Option (List Byte))
    (hs : ∀ t, stamp = some t → CharData t) : GroupOk (recordGroup id frame r u stamp) := by
  have hd : ∀ n, CharData (dec n) ∧ (34 : Byte) ∉ dec n := fun n =>
    ⟨charData_dec n, fun h => (decDigits_harmless n _ h).2 rfl⟩
  refine ⟨by simp only [recordGroup]; decide, ?_, ?_⟩
  · intro a ha
    simp only [recordGroup, List.mem_cons] at ha
    rcases ha with rfl | ha
    · exact ⟨by isname, hd id⟩
    · cases frame with
      | none => simp at ha
      | some k =>
        simp only [List.mem_cons, List.not_mem_nil, or_false] at ha
        subst ha
        exact ⟨by isname, hd k⟩
  · intro l hl
    simp only [recordGroup, List.mem_cons, List.mem_append] at hl
    rcases hl with (rfl | hl) | (rfl | hl)
    · exact ⟨by isname, charData_label r⟩
    · split at hl
      · simp at hl
      · simp only [List.mem_cons, List.mem_append, List.not_mem_nil, or_false] at hl
        rcases hl with (rfl | hl) | rfl
        · exact ⟨by isname, charData_dec _⟩
        · split at hl
          · simp at hl
          · simp only [List.mem_cons, List.not_mem_nil, or_false] at hl
            rcases hl with rfl | rfl
            · exact ⟨by isname, charData_dec _⟩
            · exact ⟨by isname, charData_dec _⟩
        · exact ⟨by isname, charData_escape _⟩
    · exact ⟨by isname, charData_escape _⟩
    · cases stamp with
      | none => simp at hl
      | some t =>
        simp only [List.mem_cons, List.not_mem_nil, or_false] at hl
        subst hl
        exact ⟨by isname, hs t rfl⟩

theorem recordGroups_ok (frame : Option Nat) (its : List Item) (hs : ∀ it ∈ its, ∀ t, it.2.2 = some t → CharData t) (start : Nat) :
    ∀ g ∈ recordGroups frame start its, GroupOk g := by
  induction its generalizing start with
  | nil => simp [recordGroups]
  | cons it its ih =>
    intro g hg
    obtain ⟨r, u, stamp⟩ := it
    rcases List.mem_cons.mp hg with rfl | hg
    · exact recordGroup_ok start frame r u stamp (hs (r, u, stamp) (List.mem_cons_self ..))
    · exact ih (fun i hi => hs i (List.mem_cons_of_mem _ hi)) _ g hg

theorem telegramGroups_ok (tss : List (List Item)) (hs : ∀ its ∈ tss, ∀ it ∈ its, ∀ t, it.2.2 = some t → CharData t) (start k : Nat) :
    ∀ g ∈ telegramGroups start k tss, GroupOk g := by
  induction tss generalizing start k with
  | nil => simp [telegramGroups]
  | cons its tss ih =>
    intro g hg
    rcases List.mem_append.mp hg with hg | hg
    · exact recordGroups_ok _ its (hs its (List.mem_cons_self ..)) _ g hg
    · exact ih (fun i hi => hs i (List.mem_cons_of_mem _ hi)) _ _ g hg

theorem readoutGroups_ok (tss : List (List Item)) (hs : ∀ its ∈ tss, ∀ it ∈ its, ∀ t, it.2.2 = some t → CharData t) :
    ∀ g ∈ readoutGroups tss, GroupOk g := by
  unfold readoutGroups
  split
  · exact recordGroups_ok _ _ (hs _ (List.mem_cons_self ..)) _
  · exact telegramGroups_ok _ hs _ _

theorem charData_counter (st : Byte) (v : List Byte) : CharData (counterText st v) := by
  unfold counterText
  split
  · exact charData_hex _
  · exact charData_fmtInt _

theorem fixedGroups_ok (x : FixedData) (m f u1 u2 : List Byte) : ∀ g ∈ fixedGroups x m f u1 u2, GroupOk g := by
  intro g hg
  simp only [fixedGroups, List.mem_cons, List.not_mem_nil, or_false] at hg
  have h0 : CharData (cs! "0") ∧ CharData (cs! "1") := ⟨charData_all _ (by isname), charData_all _ (by isname)⟩
  rcases hg with rfl | rfl | rfl
  · refine ⟨by isname, by simp, ?_⟩
    intro l hl
    simp only [List.mem_cons, List.not_mem_nil, or_false] at hl
    rcases hl with rfl | rfl | rfl | rfl
    · exact ⟨by isname, charData_hex _⟩
    · exact ⟨by isname, charData_escape _⟩
    · exact ⟨by isname, charData_dec _⟩
    · exact ⟨by isname, charData_fmtHex2 _⟩
  · refine ⟨by isname, ?_, ?_⟩
    · intro a ha
      simp only [List.mem_cons, List.not_mem_nil, or_false] at ha
      subst ha
      exact ⟨by isname, h0.1, by isname⟩
    intro l hl
    simp only [List.mem_cons, List.not_mem_nil, or_false] at hl
    rcases hl with rfl | rfl | rfl
    · exact ⟨by isname, charData_escape _⟩
    · exact ⟨by isname, charData_escape _⟩
    · exact ⟨by isname, charData_counter _ _⟩
  · refine ⟨by isname, ?_, ?_⟩
    · intro a ha
      simp only [List.mem_cons, List.not_mem_nil, or_false] at ha
      subst ha
      exact ⟨by isname, h0.2, by isname⟩
    intro l hl
    simp only [List.mem_cons, List.not_mem_nil, or_false] at hl
    rcases hl with rfl | rfl | rfl
    · exact ⟨by isname, charData_escape _⟩
    · exact ⟨by isname, charData_escape _⟩
    · exact ⟨by isname, charData_counter _ _⟩

theorem errorGroup_ok (l : List Byte) : GroupOk (errorGroup l) := by
  refine ⟨by simp only [errorGroup]; decide, by simp [errorGroup], ?_⟩
  intro x hx
  simp only [errorGroup, List.mem_cons, List.not_mem_nil, or_false] at hx
  subst hx
  exact ⟨by isname, charData_escape _⟩

end Mbus
