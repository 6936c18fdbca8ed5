import Verif.Lemmas.XmlExactNorm
import Verif.Lemmas.XmlWhole
/-
Property theorems C113: what the XML functions do with records of any length (`xmlFate`, `Meets`, `readoutGroupsCut` from
Spec/XmlExact.lean).
-/
namespace Mbus
open Spec

theorem Spec.Writable.fit {it : Item} (h : Writable it) (hd : Delivered it.1) (hs : StampOk it.2.2) : Fit it := by
  obtain ⟨u, hu⟩ := hd.printable h.storage
  have e : u = it.2.1 := by
    have := hu.unit
    rw [h.unit] at this
    injection this with this
    exact this.symm
  subst e
  exact ⟨hu, hs⟩

theorem items_delivered {t : Telegram} {ts : List Telegram} {h : VarHeader} {its : List Item} {tss : List (List Item)}
    (hread : Reads t.1 h (its.map (·.1))) (hi : Pointwise ItemsOf ts tss) : ∀ i ∈ its :: tss, ∀ it ∈ i, Delivered it.1 := by
  intro i hm it hit
  rcases List.mem_cons.mp hm with rfl | hm
  · exact hread.delivered _ (List.mem_map_of_mem hit)
  · induction hi with
    | nil => cases hm
    | cons hx _ ih =>
      rcases List.mem_cons.mp hm with rfl | h
      · obtain ⟨⟨h, hr⟩, _⟩ := hx
        exact hr.delivered _ (List.mem_map_of_mem hit)
      · exact ih (List.mem_cons_of_mem _ h) h

/-- C113 for `mbus_data_variable_xml`: whatever the number of records, the length of their texts and the content of the memory,
the call does what the lengths of the printed texts say: it writes outside its buffer, returns the complete document, or returns its
beginning.  The texts of units and values are cut to the 768 bytes of the scratch array. -/
theorem C113_variable (junk0 : Nat → Byte) (junk : Nat → Nat → Byte) (h : VarHeader) (its : List Item)
    (hd : ∀ it ∈ its, Delivered it.1 ∧ Writable it ∧ StampOk it.2.2) (hc : its.length < 2 ^ 31) :
    ∃ p, productName h = .ok p ∧
      Meets (variableXml junk0 junk h (its.map fun it => (it.1, it.2.2))) (fun m => m)
        (document (slaveGroup h p (mediumLookup h.medium) :: recordGroupsCut none 0 its))
        (xmlFate (startLength (slaveGroup h p (mediumLookup h.medium))) (whole (recordGroupsCut none 0 its))) := by
  obtain ⟨p, hp, _⟩ := productName_plain h
  exact ⟨p, hp, variableXml_fares junk0 junk h p hp its (fun it hi => (hd it hi).2.1.fit (hd it hi).1 (hd it hi).2.2) hc⟩

/-- C113 for `mbus_frame_xml`, for every chain of variable-data telegrams. -/
theorem C113_frame (junk0 : Nat → Byte) (junk : Nat → Nat → Byte) (t : Telegram) (ts : List Telegram) (h : VarHeader)
    (its : List Item) (tss : List (List Item)) (hread : Reads t.1 h (its.map (·.1))) (hst : ∀ it ∈ its, it.2.2 = t.2)
    (hi : Pointwise ItemsOf ts tss) (hs : ∀ i ∈ its :: tss, ∀ it ∈ i, Writable it ∧ StampOk it.2.2)
    (hc : total (its :: tss) < 2 ^ 31) (hk : (its :: tss).length < 2 ^ 31) :
    ∃ p, productName h = .ok p ∧
      Meets (frameXml junk0 junk t ts) (fun m => ⟨some m, false, []⟩)
        (document (slaveGroup h p (mediumLookup h.medium) :: readoutGroupsCut (its :: tss)))
        (xmlFate (startLength (slaveGroup h p (mediumLookup h.medium))) (whole (readoutGroupsCut (its :: tss)))) := by
  obtain ⟨p, hp, _⟩ := productName_plain h
  exact ⟨p, hp, frameXml_fares junk0 junk t ts its tss h p hp hread hst hi
    (fun i hm it hit => (hs i hm it hit).1.fit (items_delivered hread hi i hm it hit) (hs i hm it hit).2) hc hk⟩

/-- C113: the text that `mbus_frame_xml` returns is a well-formed document (ending in the closing tag and a line feed) exactly if
the lengths of the printed texts leave it complete, provided that the time stamps are character data. -/
theorem C113_wellFormed (junk0 : Nat → Byte) (junk : Nat → Nat → Byte) (t : Telegram) (ts : List Telegram) (h : VarHeader)
    (its : List Item) (tss : List (List Item)) (hread : Reads t.1 h (its.map (·.1))) (hst : ∀ it ∈ its, it.2.2 = t.2)
    (hi : Pointwise ItemsOf ts tss) (hs : ∀ i ∈ its :: tss, ∀ it ∈ i, Writable it ∧ StampOk it.2.2)
    (hx : ∀ i ∈ its :: tss, ∀ it ∈ i, ∀ s, it.2.2 = some s → CharData s)
    (hc : total (its :: tss) < 2 ^ 31) (hk : (its :: tss).length < 2 ^ 31) :
    ∃ p, productName h = .ok p ∧ ∀ o m text, frameXml junk0 junk t ts = .ok o → o.text = some m → cstr m = .ok text →
      (WellFormedXml text ↔ xmlFate (startLength (slaveGroup h p (mediumLookup h.medium))) (whole (readoutGroupsCut (its :: tss))) = .complete) := by
  obtain ⟨p, hp, hm⟩ := C113_frame junk0 junk t ts h its tss hread hst hi hs hc hk
  refine ⟨p, hp, ?_⟩
  have hg : ∀ g ∈ slaveGroup h p (mediumLookup h.medium) :: readoutGroupsCut (its :: tss), GroupIn g := by
    intro g hg
    rcases List.mem_cons.mp hg with rfl | hg
    · exact slaveGroup_in h p _
    · exact readoutGroupsCut_in _ hx g hg
  intro o m text ho hom htext
  generalize slaveGroup h p (mediumLookup h.medium) :: readoutGroupsCut (its :: tss) = gs at hm hg
  generalize xmlFate (startLength (slaveGroup h p (mediumLookup h.medium))) (whole (readoutGroupsCut (its :: tss))) = fate at hm
  have h0 : (0 : Byte) ∉ document gs := document_nonul gs (fun g h => (hg g h).toGroupOk)
  rw [ho] at hm
  cases fate with
  | outside => obtain ⟨n, i, h⟩ := hm; cases h
  | complete =>
    obtain ⟨m', h1, h2⟩ := hm
    cases h1
    cases hom
    rw [cstr_prefix _ _ h2, upToNul_eq _ h0] at htext
    cases htext
    exact iff_of_true (document_wellFormed gs (fun g h => (hg g h).toGroupOk)) rfl
  | cut n =>
    obtain ⟨m', h1, h2, h3⟩ := hm
    cases h1
    cases hom
    rw [cstr_prefix _ _ h3, upToNul_eq _ (fun h => h0 (List.mem_of_mem_take h))] at htext
    cases htext
    exact iff_of_false (cut_notWellFormed gs hg n h2) (fun h => by cases h)

/-- C113 for `mbus_frame_data_xml_normalized`, where the lines of a record are printed one by one. -/
theorem C113_normalized (junk0 : Nat → Byte) (junk : Nat → Nat → Byte) (x : FrameData) (hx : x.type = DATA_VARIABLE)
    (hd : ∀ r ∈ x.var.records, Delivered r ∧ StorageOk r) :
    ∃ p ns, productName x.var.header = .ok p ∧ Pointwise (fun r n => ∃ j leak, parseVariableRecord j r = .ok (n, leak)) x.var.records ns ∧
      Meets (frameDataXmlNormalized junk0 junk x) some
        (document (slaveGroup x.var.header p (mediumLookup x.var.header.medium) :: normGroupsCut 0 ns))
        (xmlFate (startLength (slaveGroup x.var.header p (mediumLookup x.var.header.medium))) ((normGroupsCut 0 ns).map lineLengths)) := by
  obtain ⟨p, hp, _⟩ := productName_plain x.var.header
  obtain ⟨ns, h1, h2⟩ := variableXmlNormalized_fares junk0 junk x.var p hp (fun r hr j => normalised_fit (hd r hr).1 (hd r hr).2 j)
  refine ⟨p, ns, hp, h1, ?_⟩
  unfold frameDataXmlNormalized
  rw [hx, if_neg (by decide), if_pos rfl]
  generalize xmlFate _ _ = f at *
  generalize variableXmlNormalized junk0 junk x.var = y at *
  cases f with
  | outside =>
    obtain ⟨n, i, rfl⟩ := h2
    exact ⟨n, i, rfl⟩
  | complete =>
    obtain ⟨m, rfl, h3⟩ := h2
    exact ⟨m, rfl, h3⟩
  | cut n =>
    obtain ⟨m, rfl, h3⟩ := h2
    exact ⟨m, rfl, h3⟩

/-! ### when a document is complete -/

theorem texts_fits (ns : List Nat) (size len : Nat) (h : len + ns.sum < size) : (Room.mk size len none).texts ns = some ⟨size, len + ns.sum, none⟩ := by
  induction ns generalizing len with
  | nil => rfl
  | cons n ns ih =>
    simp only [List.sum_cons] at h ⊢
    have : (Room.mk size len none).text n = some ⟨size, len + n, none⟩ := by
      unfold Room.text
      dsimp only
      rw [if_neg (by omega), if_pos (by omega)]
      rfl
    simp only [Room.texts, this, Option.bind_some]
    rw [ih _ (by omega)]
    simp [Nat.add_assoc]

theorem records_fits (nss : List (List Nat)) : ∀ (size len : Nat), 8192 ≤ size → len < size → (∀ ns ∈ nss, ns.sum ≤ 1023) →
    (∀ ns ∈ nss.getLast?, ns.sum ≤ 1011) → (nss = [] → len + 12 < size) →
    ∃ size' len', (Room.mk size len none).records nss = some ⟨size', len', none⟩ ∧ len' + 12 < size' := by
  induction nss with
  | nil => exact fun size len _ _ _ _ h0 => ⟨size, len, rfl, h0 rfl⟩
  | cons ns nss ih =>
    intro size len h1 h2 h3 h4 _
    have hd : ∃ size', 8192 ≤ size' ∧ len + 1024 ≤ size' ∧ (Room.mk size len none).double = ⟨size', len, none⟩ := by
      unfold Room.double
      dsimp only
      by_cases hc : len ≤ size ∧ size < len + 1024
      · rw [if_pos hc]
        exact ⟨2 * size, by omega, by omega, rfl⟩
      · rw [if_neg hc]
        exact ⟨size, h1, by omega, rfl⟩
    obtain ⟨size', g1, g2, g3⟩ := hd
    have hn := h3 ns (List.mem_cons_self ..)
    simp only [Room.records]
    rw [g3, texts_fits ns size' len (by omega), Option.bind_some]
    refine ih size' (len + ns.sum) g1 (by omega) (fun x hx => h3 x (List.mem_cons_of_mem _ hx)) ?_ ?_
    · intro x hx
      refine h4 x ?_
      cases nss with
      | nil => cases hx
      | cons y ys => rw [List.getLast?_cons_cons]; exact hx
    · intro he
      subst he
      have := h4 ns rfl
      omega

/-- C113: the document is complete whenever the XML of every record has at most 1023 characters, and that of the last one at most
1011, however many records there are (the slave information never takes more than 8179 characters). -/
theorem C113_complete (start : Nat) (nss : List (List Nat)) (hs : start < 8180) (h : ∀ ns ∈ nss, ns.sum ≤ 1023)
    (hl : ∀ ns ∈ nss.getLast?, ns.sum ≤ 1011) : xmlFate start nss = .complete := by
  obtain ⟨size, len, h1, h2⟩ := records_fits nss 8192 start (by omega) (by omega) h hl (by omega)
  unfold xmlFate
  rw [h1]
  dsimp only
  have : (Room.mk size len none).text 12 = some ⟨size, len + 12, none⟩ := by
    unfold Room.text
    dsimp only
    rw [if_neg (by omega), if_pos (by omega)]
    rfl
  rw [this]

theorem C113_start (h : VarHeader) (p : List Byte) (hp : productName h = .ok p) : startLength (slaveGroup h p (mediumLookup h.medium)) < 8180 := by
  obtain ⟨p', hp', _, h2, _⟩ := headerXml_runs (fun _ => 0) h
  have e : p' = p := Except.ok.inj (hp'.symm.trans hp)
  rw [e] at h2
  unfold startLength
  generalize (slaveGroup h p (mediumLookup h.medium)).render.length = n at *
  clear hp hp' e
  omega

/-- C113 put together: if the XML of every record has at most 1023 characters, and that of the last at most 1011, `mbus_frame_xml`
returns the complete document. -/
theorem C113_frame_complete (junk0 : Nat → Byte) (junk : Nat → Nat → Byte) (t : Telegram) (ts : List Telegram) (h : VarHeader)
    (its : List Item) (tss : List (List Item)) (hread : Reads t.1 h (its.map (·.1))) (hst : ∀ it ∈ its, it.2.2 = t.2)
    (hi : Pointwise ItemsOf ts tss) (hs : ∀ i ∈ its :: tss, ∀ it ∈ i, Writable it ∧ StampOk it.2.2)
    (hc : total (its :: tss) < 2 ^ 31) (hk : (its :: tss).length < 2 ^ 31)
    (hl : ∀ g ∈ readoutGroupsCut (its :: tss), g.render.length ≤ 1023) (hlast : ∀ g ∈ (readoutGroupsCut (its :: tss)).getLast?, g.render.length ≤ 1011) :
    ∃ m p, frameXml junk0 junk t ts = .ok ⟨some m, false, []⟩ ∧ productName h = .ok p ∧
      document (slaveGroup h p (mediumLookup h.medium) :: readoutGroupsCut (its :: tss)) ++ [0] <+: m := by
  obtain ⟨p, hp, hm⟩ := C113_frame junk0 junk t ts h its tss hread hst hi hs hc hk
  have hf : xmlFate (startLength (slaveGroup h p (mediumLookup h.medium))) (whole (readoutGroupsCut (its :: tss))) = .complete := by
    refine C113_complete _ _ (C113_start h p hp) ?_ ?_
    · intro ns hns
      obtain ⟨g, hg, rfl⟩ := List.mem_map.mp hns
      simpa using hl g hg
    · intro ns hns
      unfold whole at hns
      rw [List.getLast?_map] at hns
      obtain ⟨g, hg, rfl⟩ := Option.map_eq_some_iff.mp hns
      simpa using hlast g hg
  rw [hf] at hm
  obtain ⟨m, h1, h2⟩ := hm
  exact ⟨m, p, h1, hp, h2⟩

/-- C113: these limits are exact: with exactly 1024 bytes left, a record of up to 1011 characters gives a complete document, one of
1012 to 1024 characters a cut one, and a longer one is written outside the buffer. -/
theorem C113_limits (n : Nat) : xmlFate 7168 [[n]] = if n ≤ 1011 then .complete else if n ≤ 1024 then .cut 8191 else .outside := by
  have hd : (Room.mk 8192 7168 none).double = ⟨8192, 7168, none⟩ := by decide
  obtain ⟨k, hk⟩ : ∃ k, k = 7168 + n := ⟨_, rfl⟩
  have ht : (Room.mk 8192 7168 none).text n = some ⟨8192, k, if k < 8192 then none else some 8191⟩ := by
    unfold Room.text
    dsimp only
    rw [if_neg (by decide), ← hk]
    simp
  have h1 : (Room.mk 8192 7168 none).records [[n]] = some ⟨8192, k, if k < 8192 then none else some 8191⟩ := by
    simp only [Room.records, hd, texts_one]
    rw [ht]
    simp
  unfold xmlFate
  rw [h1]
  dsimp only
  unfold Room.text
  dsimp only
  by_cases ha : n ≤ 1011
  · rw [if_neg (by omega), if_pos ha, if_pos (show k < 8192 by omega), if_pos (show k + 12 < 8192 by omega)]
    simp
  · rw [if_neg ha]
    by_cases hb : n ≤ 1024
    · rw [if_neg (by omega), if_pos hb]
      by_cases hc : k < 8192
      · rw [if_pos hc, if_neg (show ¬ k + 12 < 8192 by omega)]
        simp
      · rw [if_neg hc]
        simp
    · rw [if_pos (by omega), if_neg hb]

/-- C113: a text whose escaped form has fewer than 762 characters is not cut. -/
theorem C113_uncut (s : List Byte) (h : (escape s).length < 762) : escapeInto 768 s = escape s := by
  obtain ⟨k, h1, h2, h3, h4⟩ := escapeInto_eq s 768 (by omega)
  rw [h2]
  by_cases hk : k < s.length
  · exfalso
    have h6 := h3 hk
    have h7 : (escape s).length = (escape (s.take k)).length + (escape (s.drop k)).length := by
      rw [← List.length_append, ← escape_append, List.take_append_drop]
    rw [h2] at h6
    omega
  · rw [List.take_of_length_le (by omega)]

/-- ... so that the documents of C113 are those of C56 if no text is that long. -/
theorem C113_readout (tss : List (List Item)) (h : ∀ its ∈ tss, ∀ it ∈ its, (Special it.1 ∨ (escape it.2.1).length < 762) ∧ (escape (upToNul (shown it.1))).length < 762) :
    readoutGroupsCut tss = readoutGroups tss := by
  have h1 : ∀ frame (its : List Item), (∀ it ∈ its, (Special it.1 ∨ (escape it.2.1).length < 762) ∧ (escape (upToNul (shown it.1))).length < 762) →
      ∀ start, recordGroupsCut frame start its = recordGroups frame start its := by
    intro frame its hh
    induction its with
    | nil => exact fun _ => rfl
    | cons it its ih =>
      intro start
      obtain ⟨r, u, stamp⟩ := it
      obtain ⟨g1, g2⟩ := hh _ (List.mem_cons_self ..)
      dsimp only at g1 g2
      simp only [recordGroupsCut, recordGroups]
      rw [ih (fun x hx => hh x (List.mem_cons_of_mem _ hx))]
      congr 1
      unfold recordGroupCut recordGroup
      dsimp only
      rw [C113_uncut _ g2]
      rcases g1 with g1 | g1
      · rw [if_pos g1, if_pos g1]; rfl
      · rw [C113_uncut _ g1]; rfl
  have h2 : ∀ (tss : List (List Item)), (∀ its ∈ tss, ∀ it ∈ its, (Special it.1 ∨ (escape it.2.1).length < 762) ∧ (escape (upToNul (shown it.1))).length < 762) →
      ∀ start k, telegramGroupsCut start k tss = telegramGroups start k tss := by
    intro tss hh
    induction tss with
    | nil => exact fun _ _ => rfl
    | cons its tss ih =>
      intro start k
      simp only [telegramGroupsCut, telegramGroups]
      rw [h1 _ its (hh its (List.mem_cons_self ..)), ih (fun x hx => hh x (List.mem_cons_of_mem _ hx))]
  match tss, h with
  | [], _ => rfl
  | [its], h => exact h1 none its (h its (List.mem_cons_self ..)) 0
  | a :: b :: c, h => exact h2 (a :: b :: c) h 0 0

/-! ### a telegram whose document is silently cut -/

/-- A record with a unit of 45 quotation marks and a text value of 115 quotation marks. -/
def edgeRec : Rec := .value 0x0D [] 0x7C (List.replicate 45 34) [] (115 :: List.replicate 115 34)
def edgeItem : Item := (mkRec edgeRec, List.replicate 45 34, none)
/-- A telegram with 32 temperatures and this record. -/
def edgeTelegram : Frame := rsp 0x72 (hdr ++ ((List.replicate 32 [0x00, 0x5A]).flatten ++ edgeRec.encode))

theorem edge_legal : edgeRec.Legal := by
  refine ⟨by decide, by decide, by decide, by decide, by decide, by decide, by decide, by decide, by decide, ?_⟩
  unfold DataFits
  rw [if_pos (by decide)]
  exact ⟨_, _, rfl, by rw [List.length_replicate]; decide⟩

theorem edge_reads : Reads edgeTelegram hdrHeader ((List.replicate 32 flowItem ++ [edgeItem]).map (·.1)) := by
  have := reads_rsp ((List.replicate 32 [0x00, 0x5A]).flatten ++ edgeRec.encode) (by decide +kernel)
    (List.replicate 32 flowRec ++ [edgeRec]) (flow_tiles 32 (by
      have := Tiles.cons edge_legal .nil
      rwa [List.append_nil] at this))
  rw [List.map_append, List.map_replicate] at this ⊢
  exact this

theorem edge_writable : ∀ it ∈ List.replicate 32 flowItem ++ [edgeItem], Writable it ∧ StampOk it.2.2 := by
  intro it hit
  rcases List.mem_append.mp hit with h | h
  · rw [(List.mem_replicate.mp h).2]
    exact ⟨⟨by decide +kernel, fun _ => ⟨by decide, by decide +kernel⟩⟩, by intro t h; cases h⟩
  · rw [List.mem_singleton.mp h]
    exact ⟨⟨by decide +kernel, fun _ => ⟨by decide, by decide +kernel⟩⟩, by intro t h; cases h⟩

theorem recordGroupsCut_append (frame : Option Nat) (xs ys : List Item) (start : Nat) :
    recordGroupsCut frame start (xs ++ ys) = recordGroupsCut frame start xs ++ recordGroupsCut frame (start + xs.length) ys := by
  induction xs generalizing start with
  | nil => rfl
  | cons x xs ih =>
    obtain ⟨r, u, stamp⟩ := x
    simp only [List.cons_append, recordGroupsCut, ih, List.length_cons]
    congr 3
    omega

theorem dec_length1 (id : Nat) (h : id < 10) : (dec id).length = 1 := by
  unfold dec decDigits
  rw [dif_pos h]
  rfl

theorem dec_length2 (id : Nat) (h : 10 ≤ id) (h' : id < 100) : (dec id).length = 2 := by
  unfold dec
  rw [decDigits, dif_neg (by omega), List.length_append]
  have := dec_length1 (id / 10) (by omega)
  unfold dec at this
  rw [this]
  rfl

set_option maxRecDepth 8000 in
theorem flow_exact (id : Nat) : (recordGroupCut id none flowItem.1 flowItem.2.1 flowItem.2.2).render.length = 207 + (dec id).length := by
  have h3 : recordGroupCut id none flowItem.1 flowItem.2.1 flowItem.2.2 =
      { name := cs! "DataRecord", attrs := [(cs! "id", dec id)],
        leaves := [(cs! "Function", cs! "Instantaneous value"), (cs! "StorageNumber", cs! "0"), (cs! "Unit", cs! "Flow temperature (1e-1 deg C)"), (cs! "Value", [])] } := by
    have e1 : dec 0 = cs! "0" := by simp [dec, decDigits]
    rw [← e1]
    rfl
  rw [h3]
  generalize dec id = d at *
  simp [Group.render, leaf, attr]
  omega

theorem flow_whole (n start w : Nat) (h : ∀ i, start ≤ i → i < start + n → (dec i).length = w) :
    whole (recordGroupsCut none start (List.replicate n flowItem)) = List.replicate n [207 + w] := by
  induction n generalizing start with
  | zero => rfl
  | succ n ih =>
    rw [List.replicate_succ, List.replicate_succ, ← ih (start + 1) (fun i h1 h2 => h i (by omega) (by omega)), ← h start (by omega) (by omega), ← flow_exact]
    rfl

theorem edge_shown : upToNul (shown (mkRec edgeRec)) = List.replicate 115 34 := by decide +kernel

set_option maxRecDepth 8000 in
theorem edge_length : (recordGroupCut 32 none edgeItem.1 edgeItem.2.1 edgeItem.2.2).render.length = 1140 := by
  have h3 : recordGroupCut 32 none edgeItem.1 edgeItem.2.1 edgeItem.2.2 =
      { name := cs! "DataRecord", attrs := [(cs! "id", dec 32)],
        leaves := [(cs! "Function", cs! "Instantaneous value"), (cs! "StorageNumber", dec 0), (cs! "Unit", escapeInto 768 (List.replicate 45 34)),
          (cs! "Value", escapeInto 768 (upToNul (shown (mkRec edgeRec))))] } := rfl
  have e1 := dec_length2 32 (by decide) (by decide)
  have e2 := dec_length1 0 (by decide)
  have e3 : (escapeInto 768 (List.replicate 45 34)).length = 270 := by
    rw [C113_uncut _ (by rw [escape_quotes]; decide), escape_quotes]
  have e4 : (escapeInto 768 (upToNul (shown (mkRec edgeRec)))).length = 690 := by
    rw [edge_shown, C113_uncut _ (by rw [escape_quotes]; decide), escape_quotes]
  rw [h3]
  generalize escapeInto 768 (List.replicate 45 34) = u at *
  generalize escapeInto 768 (upToNul (shown (mkRec edgeRec))) = v at *
  generalize dec 32 = d at *
  generalize dec 0 = z at *
  simp [Group.render, leaf, attr]
  omega

theorem edge_fate : xmlFate (startLength (slaveGroup hdrHeader [] (mediumLookup hdrHeader.medium)))
    (whole (readoutGroupsCut [List.replicate 32 flowItem ++ [edgeItem]])) = .cut 8191 := by
  have e : List.replicate 32 flowItem ++ [edgeItem] = List.replicate 10 flowItem ++ (List.replicate 22 flowItem ++ [edgeItem]) := by
    rw [← List.append_assoc, List.replicate_append_replicate]
  have e2 : whole (readoutGroupsCut [List.replicate 32 flowItem ++ [edgeItem]]) = List.replicate 10 [208] ++ (List.replicate 22 [209] ++ [[1140]]) := by
    show whole (recordGroupsCut none 0 _) = _
    rw [e, recordGroupsCut_append, recordGroupsCut_append]
    unfold whole
    rw [List.map_append, List.map_append]
    have a1 := flow_whole 10 0 1 (fun i _ h => dec_length1 i (by omega))
    have a2 := flow_whole 22 10 2 (fun i h1 h2 => dec_length2 i h1 (by omega))
    unfold whole at a1 a2
    have a3 : (recordGroupsCut none (0 + (List.replicate 10 flowItem).length + (List.replicate 22 flowItem).length) [edgeItem]).map (fun g => [g.render.length]) = [[1140]] := by
      rw [List.length_replicate, List.length_replicate, ← edge_length]
      rfl
    rw [a1, a3, List.length_replicate, a2]
  rw [e2]
  unfold startLength
  rw [hdr_length]
  decide +kernel

/-- C113: documents are cut without notice: for this telegram `mbus_frame_xml` returns the first 8191 characters of its document,
whatever the memory contained; the closing tag is missing. -/
theorem C113_cut (junk0 : Nat → Byte) (junk : Nat → Nat → Byte) :
    ∃ m doc, frameXml junk0 junk (edgeTelegram, none) [] = .ok ⟨some m, false, []⟩ ∧
      doc = document (slaveGroup hdrHeader [] (mediumLookup hdrHeader.medium) :: readoutGroups [List.replicate 32 flowItem ++ [edgeItem]]) ∧
      8191 < doc.length ∧ doc.take 8191 ++ [0] <+: m := by
  obtain ⟨p, hp, hm⟩ := C113_frame junk0 junk (edgeTelegram, none) [] hdrHeader (List.replicate 32 flowItem ++ [edgeItem]) [] edge_reads (by
      intro it hit
      rcases List.mem_append.mp hit with h | h
      · rw [(List.mem_replicate.mp h).2]; rfl
      · rw [List.mem_singleton.mp h]; rfl) .nil (by
      intro i hi
      rw [List.mem_singleton.mp hi]
      exact edge_writable) (by simp [total]) (by simp)
  rw [hdr_product] at hp
  injection hp with hp
  subst hp
  rw [edge_fate] at hm
  obtain ⟨m, h1, h2, h3⟩ := hm
  refine ⟨m, _, h1, ?_, h2, h3⟩
  rw [C113_readout]
  intro its hi it hit
  rw [List.mem_singleton.mp hi] at hit
  rcases List.mem_append.mp hit with h | h
  · rw [(List.mem_replicate.mp h).2]
    exact ⟨.inr (by decide +kernel), by decide +kernel⟩
  · rw [List.mem_singleton.mp h]
    refine ⟨.inr ?_, ?_⟩
    · show (escape (List.replicate 45 34)).length < 762
      rw [escape_quotes]; decide
    · show (escape (upToNul (shown (mkRec edgeRec)))).length < 762
      rw [edge_shown, escape_quotes]; decide

/-- The hypotheses of C113_wellFormed for that telegram: what is returned is not a well-formed document. -/
example (junk0 : Nat → Byte) (junk : Nat → Nat → Byte) (o : XmlOut) (m text : List Byte) (h1 : frameXml junk0 junk (edgeTelegram, none) [] = .ok o)
    (h2 : o.text = some m) (h3 : cstr m = .ok text) : ¬ WellFormedXml text := by
  obtain ⟨p, hp, hm⟩ := C113_wellFormed junk0 junk (edgeTelegram, none) [] hdrHeader (List.replicate 32 flowItem ++ [edgeItem]) [] edge_reads (by
      intro it hit
      rcases List.mem_append.mp hit with h | h
      · rw [(List.mem_replicate.mp h).2]; rfl
      · rw [List.mem_singleton.mp h]; rfl) .nil (by
      intro i hi
      rw [List.mem_singleton.mp hi]
      exact edge_writable) (by
      intro i hi it hit s hs
      rw [List.mem_singleton.mp hi] at hit
      rcases List.mem_append.mp hit with h | h
      · rw [(List.mem_replicate.mp h).2] at hs; cases hs
      · rw [List.mem_singleton.mp h] at hs; cases hs) (by simp [total]) (by simp)
  rw [hdr_product] at hp
  injection hp with hp
  subst hp
  rw [hm o m text h1 h2 h3, edge_fate]
  decide

/-- The hypotheses of C113_complete: a document with a record of 1000 characters after one of 1023. -/
example : xmlFate 371 [[208], [500, 523], [1000]] = .complete := C113_complete _ _ (by decide) (by decide) (by decide)

/-- Hypotheses of C113_normalized for a telegram with the record of quotation marks. -/
example (junk0 : Nat → Byte) (junk : Nat → Nat → Byte) (x : FrameData) (hx : x.type = DATA_VARIABLE) (hr : x.var.records = [mkRec quoteRec]) :
    ∃ p ns, productName x.var.header = .ok p ∧ Pointwise (fun r n => ∃ j leak, parseVariableRecord j r = .ok (n, leak)) x.var.records ns ∧
      Meets (frameDataXmlNormalized junk0 junk x) some
        (document (slaveGroup x.var.header p (mediumLookup x.var.header.medium) :: normGroupsCut 0 ns))
        (xmlFate (startLength (slaveGroup x.var.header p (mediumLookup x.var.header.medium))) ((normGroupsCut 0 ns).map lineLengths)) := by
  refine C113_normalized junk0 junk x hx fun r h => ?_
  rw [hr] at h
  rw [List.mem_singleton.mp h]
  exact ⟨overflow_reads.delivered _ (by simp), ⟨by decide, by decide +kernel⟩⟩

/-! Direct instances of the theorems above: one or two telegrams with one volume record each. -/

theorem volume_written : ∀ i ∈ [[volumeItem], [volumeItem]], ∀ it ∈ i, Writable it ∧ StampOk it.2.2 :=
  fun i hi it hit => ⟨⟨(volume_items i hi it hit).1.unit, (volume_items i hi it hit).1.storage⟩, (volume_items i hi it hit).2⟩
example (junk0 : Nat → Byte) (junk : Nat → Nat → Byte) := C113_variable junk0 junk hdrHeader [volumeItem]
  (fun it h => ⟨volume_reads.delivered it.1 (by rw [List.mem_singleton.mp h]; simp), volume_written [volumeItem] (by simp) it h⟩) (by decide)
example (junk0 : Nat → Byte) (junk : Nat → Nat → Byte) := C113_frame junk0 junk (volumeTelegram, volumeItem.2.2) [(volumeTelegram, volumeItem.2.2)] hdrHeader [volumeItem]
  [[volumeItem]] volume_reads (by simp) (.cons ⟨⟨hdrHeader, volume_reads⟩, by simp⟩ .nil) volume_written (by decide) (by decide)
example := C113_start hdrHeader [] (by decide +kernel)
example := C113_uncut (cs! "a<b") (by decide)
example : readoutGroupsCut [[volumeItem], [volumeItem]] = readoutGroups [[volumeItem], [volumeItem]] := C113_readout _ (by
  intro its h it hit
  have : its = [volumeItem] := by simpa using h
  subst this
  rw [List.mem_singleton.mp hit]
  exact ⟨.inr (by decide +kernel), by
    have : shown volumeItem.1 = fmtInt 5 := rfl
    rw [this, show fmtInt 5 = [53] by simp [fmtInt, decDigits]]
    decide⟩)

end Mbus
