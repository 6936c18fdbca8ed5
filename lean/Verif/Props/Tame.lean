import Verif.Spec.Tame
import Verif.Props.XmlInject
import Verif.Props.ToolExact
import Verif.Props.NormExact
/-
Property theorems C133: no control character reaches the terminal.  `TameText` is from Spec/Tame.lean.
-/
namespace Mbus
open Spec

theorem tame_nil : TameText [] := by intro c h; cases h

theorem tame_append {a b : List Byte} : TameText (a ++ b) ↔ TameText a ∧ TameText b :=
  ⟨fun h => ⟨fun c hc => h c (List.mem_append_left _ hc), fun c hc => h c (List.mem_append_right _ hc)⟩,
    fun h c hc => (List.mem_append.mp hc).elim (h.1 c) (h.2 c)⟩

theorem tame_flatMap {α : Type} {xs : List α} {f : α → List Byte} (h : ∀ x ∈ xs, TameText (f x)) : TameText (xs.flatMap f) := by
  intro c hc
  obtain ⟨x, hx, hc⟩ := List.mem_flatMap.mp hc
  exact h x hx c hc

theorem tame_take {t : List Byte} (h : TameText t) (n : Nat) : TameText (t.take n) := fun c hc => h c (List.mem_of_mem_take hc)

theorem tame_escape1 (c : Byte) : TameText (escape1 c) := by
  revert c
  exact forall_byte (by decide +kernel)

theorem tame_escape (s : List Byte) : TameText (escape s) := tame_flatMap fun c _ => tame_escape1 c

theorem tame_escapeInto (s : List Byte) : TameText (escapeInto 768 s) := by
  obtain ⟨k, _, h, _⟩ := escapeInto_eq s 768 (Nat.le_refl _)
  rw [h]
  exact tame_escape _

theorem tame_dec (n : Nat) : TameText (decDigits n) := by
  have key : ∀ k : Fin 10, Tame (UInt8.ofNat (48 + k.val)) := by decide +kernel
  fun_induction decDigits n with
  | case1 n h => intro c hc; rw [List.mem_singleton.mp hc]; exact key ⟨n, h⟩
  | case2 n h ih =>
    refine tame_append.mpr ⟨ih, ?_⟩
    intro c hc; rw [List.mem_singleton.mp hc]; exact key ⟨n % 10, Nat.mod_lt _ (by decide)⟩

theorem tame_hex (n : Nat) : TameText (hexDigits n) := by
  have key : ∀ k : Fin 16, Tame (hexDigitU k.val) := by decide +kernel
  fun_induction hexDigits n with
  | case1 n h => intro c hc; rw [List.mem_singleton.mp hc]; exact key ⟨n, h⟩
  | case2 n h ih =>
    refine tame_append.mpr ⟨ih, ?_⟩
    intro c hc; rw [List.mem_singleton.mp hc]; exact key ⟨n % 16, Nat.mod_lt _ (by decide)⟩

theorem tame_fmtHex2 (b : Byte) : TameText (fmtHex2 b) := forall_byte (P := fun b => TameText (fmtHex2 b)) (by decide +kernel) b

theorem tame_int (z : Int) : TameText (fmtInt z) := by
  unfold fmtInt
  split
  · exact (tame_append (a := [45])).mpr ⟨by decide, tame_dec _⟩
  · exact tame_dec _

theorem tame_flag (n : Nat) : TameText (flagLetters n) := by
  have key : ∀ k : Fin 32, Tame (UInt8.ofNat (64 + k.val)) := by decide +kernel
  intro c hc
  simp only [flagLetters, List.mem_cons, List.not_mem_nil, or_false] at hc
  rcases hc with rfl | rfl | rfl
  · exact key ⟨n / 1024 % 32, Nat.mod_lt _ (by decide)⟩
  · exact key ⟨n / 32 % 32, Nat.mod_lt _ (by decide)⟩
  · exact key ⟨n % 32, Nat.mod_lt _ (by decide)⟩

theorem tame_label (r : Record) : TameText (functionLabel r) := by
  rw [← (functionLabel_short r).2.2]
  exact tame_escape _

theorem tame_padZero (w : Nat) {t : List Byte} (h : TameText t) : TameText (padZero w t) := by
  unfold padZero
  refine tame_append.mpr ⟨fun c hc => ?_, h⟩
  rw [(List.mem_replicate.mp hc).2]
  decide

theorem tame_fmtF (x : Flt) : TameText (fmtF x) := by
  have hs : ∀ neg : Bool, TameText (if neg then [45] else []) := by decide
  cases x with
  | inf neg => exact tame_append.mpr ⟨hs neg, by decide⟩
  | nan neg => exact tame_append.mpr ⟨hs neg, by decide⟩
  | fin neg mag =>
    exact tame_append.mpr ⟨tame_append.mpr ⟨tame_append.mpr ⟨hs neg, tame_dec _⟩, by decide⟩, tame_padZero _ (tame_dec _)⟩

theorem tame_counter (st : Byte) (v : List Byte) : TameText (counterText st v) := by
  unfold counterText
  split
  · exact tame_hex _
  · exact tame_int _

/-- A group all of whose names and texts are tame. -/
structure GroupTame (g : Group) : Prop where
  name : TameText g.name
  attrs : ∀ a ∈ g.attrs, TameText a.1 ∧ TameText a.2
  leaves : ∀ l ∈ g.leaves, TameText l.1 ∧ TameText l.2

theorem tame_document (gs : List Group) (h : ∀ g ∈ gs, GroupTame g) : TameText (document gs) := by
  unfold document
  refine tame_append.mpr ⟨tame_append.mpr ⟨by decide, tame_flatMap fun g hg => ?_⟩, by decide⟩
  obtain ⟨h1, h2, h3⟩ := h g hg
  have ha : TameText (g.attrs.flatMap attr) := tame_flatMap fun a ha => by
    have := h2 a ha
    show TameText (cs! " " ++ a.1 ++ cs! "=\"" ++ a.2 ++ cs! "\"")
    simp only [tame_append]
    exact ⟨⟨⟨⟨by decide, this.1⟩, by decide⟩, this.2⟩, by decide⟩
  have hl : TameText (g.leaves.flatMap leaf) := tame_flatMap fun l hl => by
    have := h3 l hl
    unfold leaf
    simp only [tame_append]
    exact ⟨⟨⟨⟨⟨⟨by decide, this.1⟩, by decide⟩, this.2⟩, by decide⟩, this.1⟩, by decide⟩
  unfold Group.render
  simp only [tame_append]
  exact ⟨⟨⟨⟨⟨⟨⟨by decide, h1⟩, ha⟩, by decide⟩, hl⟩, by decide⟩, h1⟩, by decide⟩

theorem slaveGroup_tame (h : VarHeader) (p m : List Byte) : GroupTame (slaveGroup h p m) := by
  refine ⟨by simp only [slaveGroup]; decide, by simp [slaveGroup], ?_⟩
  intro l hl
  simp only [slaveGroup, List.mem_cons, List.not_mem_nil, or_false] at hl
  rcases hl with rfl | rfl | rfl | rfl | rfl | rfl | rfl | rfl <;> refine ⟨by dsimp only; decide, ?_⟩
  · exact tame_hex _
  · exact tame_flag _
  · exact tame_dec _
  · exact tame_escape _
  · exact tame_escape _
  · exact tame_dec _
  · exact tame_fmtHex2 _
  · exact tame_flatMap fun b _ => tame_fmtHex2 b

theorem recordGroupCut_tame (id : Nat) (frame : Option Nat) (r : Record) (u : List Byte) (stamp : Option (List Byte))
    (hs : ∀ t, stamp = some t → TameText t) : GroupTame (recordGroupCut id frame r u stamp) := by
  refine ⟨by simp only [recordGroupCut]; decide, ?_, ?_⟩
  · intro a ha
    simp only [recordGroupCut, List.mem_cons] at ha
    rcases ha with rfl | ha
    · exact ⟨by dsimp only; decide, tame_dec id⟩
    · cases frame with
      | none => simp at ha
      | some k =>
        simp only [List.mem_cons, List.not_mem_nil, or_false] at ha
        subst ha
        exact ⟨by dsimp only; decide, tame_dec k⟩
  · intro l hl
    simp only [recordGroupCut, List.mem_cons, List.mem_append] at hl
    rcases hl with (rfl | hl) | (rfl | hl)
    · exact ⟨by dsimp only; decide, tame_label r⟩
    · split at hl
      · simp at hl
      · simp only [List.mem_cons, List.mem_append, List.not_mem_nil, or_false] at hl
        rcases hl with (rfl | hl) | rfl
        · exact ⟨by dsimp only; decide, tame_dec _⟩
        · split at hl
          · simp at hl
          · simp only [List.mem_cons, List.not_mem_nil, or_false] at hl
            rcases hl with rfl | rfl
            · exact ⟨by dsimp only; decide, tame_dec _⟩
            · exact ⟨by dsimp only; decide, tame_dec _⟩
        · exact ⟨by dsimp only; decide, tame_escapeInto _⟩
    · exact ⟨by dsimp only; decide, tame_escapeInto _⟩
    · cases stamp with
      | none => simp at hl
      | some t =>
        simp only [List.mem_cons, List.not_mem_nil, or_false] at hl
        subst hl
        exact ⟨by dsimp only; decide, hs t rfl⟩

theorem recordGroupsCut_tame (frame : Option Nat) (its : List Item) (hs : ∀ it ∈ its, ∀ t, it.2.2 = some t → TameText t) (start : Nat) :
    ∀ g ∈ recordGroupsCut frame start its, GroupTame g := by
  induction its generalizing start with
  | nil => simp [recordGroupsCut]
  | cons it its ih =>
    intro g hg
    obtain ⟨r, u, stamp⟩ := it
    rcases List.mem_cons.mp hg with rfl | hg
    · exact recordGroupCut_tame start frame r u stamp (hs (r, u, stamp) (List.mem_cons_self ..))
    · exact ih (fun i hi => hs i (List.mem_cons_of_mem _ hi)) _ g hg

theorem readoutGroupsCut_tame (tss : List (List Item)) (hs : ∀ its ∈ tss, ∀ it ∈ its, ∀ t, it.2.2 = some t → TameText t) :
    ∀ g ∈ readoutGroupsCut tss, GroupTame g := by
  have key : ∀ tss : List (List Item), (∀ its ∈ tss, ∀ it ∈ its, ∀ t, it.2.2 = some t → TameText t) → ∀ start k,
      ∀ g ∈ telegramGroupsCut start k tss, GroupTame g := by
    intro tss hs
    induction tss with
    | nil => simp [telegramGroupsCut]
    | cons its tss ih =>
      intro start k g hg
      rcases List.mem_append.mp hg with hg | hg
      · exact recordGroupsCut_tame _ its (hs its (List.mem_cons_self ..)) _ g hg
      · exact ih (fun i hi => hs i (List.mem_cons_of_mem _ hi)) _ _ g hg
  unfold readoutGroupsCut
  split
  · exact recordGroupsCut_tame _ _ (hs _ (List.mem_cons_self ..)) _
  · exact key _ hs _ _

theorem fixedGroups_tame (x : FixedData) (m f u1 u2 : List Byte) : ∀ g ∈ fixedGroups x m f u1 u2, GroupTame g := by
  intro g hg
  simp only [fixedGroups, List.mem_cons, List.not_mem_nil, or_false] at hg
  rcases hg with rfl | rfl | rfl
  · refine ⟨by dsimp only; decide, by simp, ?_⟩
    intro l hl
    simp only [List.mem_cons, List.not_mem_nil, or_false] at hl
    rcases hl with rfl | rfl | rfl | rfl <;> refine ⟨by dsimp only; decide, ?_⟩
    · exact tame_hex _
    · exact tame_escape _
    · exact tame_dec _
    · exact tame_fmtHex2 _
  all_goals
    refine ⟨by dsimp only; decide, by dsimp only; decide, ?_⟩
    intro l hl
    simp only [List.mem_cons, List.not_mem_nil, or_false] at hl
    rcases hl with rfl | rfl | rfl <;> refine ⟨by dsimp only; decide, ?_⟩
    · exact tame_escape _
    · exact tame_escape _
    · exact tame_counter _ _

theorem errorGroup_tame (l : List Byte) : GroupTame (errorGroup l) := by
  refine ⟨by simp only [errorGroup]; decide, by simp [errorGroup], ?_⟩
  intro x hx
  simp only [errorGroup, List.mem_cons, List.not_mem_nil, or_false] at hx
  subst hx
  exact ⟨by dsimp only; decide, tame_escape _⟩

theorem normGroupsCut_tame (start : Nat) (ns : List (Option NRecord)) : ∀ g ∈ normGroupsCut start ns, GroupTame g := by
  intro g hg
  unfold normGroupsCut at hg
  obtain ⟨⟨n, id⟩, _, rfl⟩ := List.mem_map.mp hg
  have hd : ∀ a ∈ [(cs! "id", dec id)], TameText a.1 ∧ TameText a.2 := by
    intro a ha
    rw [List.mem_singleton.mp ha]
    exact ⟨by dsimp only; decide, tame_dec id⟩
  cases n with
  | none => exact ⟨by simp only [normGroupCut]; decide, hd, by simp [normGroupCut]⟩
  | some n =>
    refine ⟨by simp only [normGroupCut]; decide, hd, ?_⟩
    intro l hl
    simp only [normGroupCut, List.mem_cons, List.mem_append, List.not_mem_nil, or_false] at hl
    rcases hl with ((rfl | rfl) | hl) | (rfl | rfl | rfl)
    · exact ⟨by dsimp only; decide, tame_escapeInto _⟩
    · exact ⟨by dsimp only; decide, tame_int _⟩
    · split at hl
      · simp only [List.mem_cons, List.not_mem_nil, or_false] at hl
        rcases hl with rfl | rfl
        · exact ⟨by dsimp only; decide, tame_int _⟩
        · exact ⟨by dsimp only; decide, tame_int _⟩
      · simp at hl
    · exact ⟨by dsimp only; decide, tame_escapeInto _⟩
    · exact ⟨by dsimp only; decide, tame_escapeInto _⟩
    · refine ⟨by dsimp only; decide, ?_⟩
      dsimp only
      unfold normTextCut
      split
      · exact tame_fmtF _
      · exact tame_escapeInto _

/-! ### the calls -/

/-- The text of the buffer a call leaves, if the document is tame. -/
theorem Meets.tame {α : Type} {x : C α} {done : List Byte → α} {doc : List Byte} {fate : XmlFate} (h : Spec.Meets x done doc fate)
    (hd : TameText doc) {o : α} (ho : x = .ok o) : ∃ m, o = done m ∧ ∃ text, cstr m = .ok text ∧ TameText text := by
  have up : ∀ t, TameText t → TameText (upToNul t) := fun t ht c hc => ht c (List.takeWhile_subset _ hc)
  cases fate with
  | outside => obtain ⟨n, i, h⟩ := h; rw [ho] at h; cases h
  | complete =>
    obtain ⟨m, h1, h2⟩ := h
    rw [ho] at h1
    exact ⟨m, Except.ok.inj h1, _, cstr_prefix _ _ h2, up _ hd⟩
  | cut n =>
    obtain ⟨m, h1, _, h2⟩ := h
    rw [ho] at h1
    exact ⟨m, Except.ok.inj h1, _, cstr_prefix _ _ h2, up _ (tame_take hd n)⟩

/-- C133 for `mbus_frame_xml`: whatever the telegrams, the text returned is made of printable characters and line feeds only (if the time
stamps are): no control character and no escape sequence sent by a meter gets into the document. -/
theorem C133_frame (junk0 : Nat → Byte) (junk : Nat → Nat → Byte) (t : Telegram) (ts : List Telegram) (h : VarHeader)
    (its : List Item) (tss : List (List Item)) (hread : Reads t.1 h (its.map (·.1))) (hst : ∀ it ∈ its, it.2.2 = t.2)
    (hi : Pointwise ItemsOf ts tss) (hs : ∀ i ∈ its :: tss, ∀ it ∈ i, Spec.Writable it ∧ StampOk it.2.2)
    (hx : ∀ i ∈ its :: tss, ∀ it ∈ i, ∀ s, it.2.2 = some s → TameText s)
    (hc : total (its :: tss) < 2 ^ 31) (hk : (its :: tss).length < 2 ^ 31) (o : XmlOut) (ho : frameXml junk0 junk t ts = .ok o) :
    ∃ m text, o.text = some m ∧ cstr m = .ok text ∧ TameText text := by
  obtain ⟨p, _, hm⟩ := C113_frame junk0 junk t ts h its tss hread hst hi hs hc hk
  obtain ⟨m, rfl, text, h1, h2⟩ := Meets.tame hm (tame_document _ fun g hg => by
    rcases List.mem_cons.mp hg with rfl | hg
    · exact slaveGroup_tame h p _
    · exact readoutGroupsCut_tame _ hx g hg) ho
  exact ⟨m, text, rfl, h1, h2⟩

/-- C133 for `mbus_frame_data_xml_normalized`, `mbus_data_fixed_xml` and `mbus_data_error_xml`. -/
theorem C133_normalized (junk0 : Nat → Byte) (junk : Nat → Nat → Byte) (x : FrameData) (hx : x.type = DATA_VARIABLE)
    (hd : ∀ r ∈ x.var.records, Delivered r ∧ StorageOk r) (o : Option (List Byte)) (ho : frameDataXmlNormalized junk0 junk x = .ok o) :
    ∃ m text, o = some m ∧ cstr m = .ok text ∧ TameText text := by
  obtain ⟨p, ns, _, _, hm⟩ := C113_normalized junk0 junk x hx hd
  obtain ⟨m, rfl, text, h1, h2⟩ := Meets.tame hm (tame_document _ fun g hg => by
    rcases List.mem_cons.mp hg with rfl | hg
    · exact slaveGroup_tame _ p _
    · exact normGroupsCut_tame _ _ g hg) ho
  exact ⟨m, text, rfl, h1, h2⟩

theorem C133_fixed (junk : Nat → Byte) (x : FixedData) : ∃ m text, fixedXml junk x = .ok m ∧ cstr m = .ok text ∧ TameText text := by
  obtain ⟨m, h1, h2⟩ := fixedXml_runs junk x
  obtain ⟨_, rfl, text, h3, h4⟩ := Meets.tame (x := fixedXml junk x) (done := id) (fate := .complete) ⟨m, h1, h2⟩
    (tame_document _ (fixedGroups_tame x _ _ _ _)) h1
  exact ⟨m, text, h1, h3, h4⟩

theorem C133_error (junk : Nat → Byte) (e : Int) : ∃ m text, errorXml junk e = .ok m ∧ cstr m = .ok text ∧ TameText text := by
  obtain ⟨m, h1, h2⟩ := errorXml_runs junk e
  obtain ⟨_, rfl, text, h3, h4⟩ := Meets.tame (x := errorXml junk e) (done := id) (fate := .complete) ⟨m, h1, h2⟩
    (tame_document _ fun g hg => by rw [List.mem_singleton.mp hg]; exact errorGroup_tame _) h1
  exact ⟨m, text, h1, h3, h4⟩

/-! ### the dumps -/

theorem tame_medium (m : Byte) : TameText (mediumLookup m) := by
  revert m
  exact forall_byte (by decide +kernel)

theorem tame_yesNo (b : Bool) : TameText (yesNo b) := by revert b; decide

theorem tame_snp (n : Nat) {t : List Byte} (h : TameText t) : TameText (snp n t) := by
  unfold snp
  exact tame_take h _

theorem tame_fixed (x : FixedData) (u st : Int) : TameText (fixedMedium x) ∧ TameText (fixedUnit u) ∧ TameText (fixedFunction st) := by
  refine ⟨tame_snp _ (caseOf_all TameText _ _ _ (by decide +kernel) (by decide +kernel)),
    tame_snp _ (caseOf_all TameText _ _ _ (by decide +kernel) (by decide +kernel)), tame_snp _ ?_⟩
  unfold fixedFunctionText
  split <;> decide +kernel

theorem forN_tame (f : Nat → List Byte → C (List Byte)) (hf : ∀ j t t', TameText t → f j t = .ok t' → TameText t') :
    ∀ (n i : Nat) (t t' : List Byte), TameText t → forN n i t f = .ok t' → TameText t'
  | 0, _, t, t', ht, h => by
    unfold forN at h
    rw [← Except.ok.inj h]
    exact ht
  | n + 1, i, t, t', ht, h => by
    unfold forN at h
    obtain ⟨t1, h1, h2⟩ := bind_eq_ok.mp h
    exact forN_tame f hf n _ t1 t' (hf i t t1 ht h1) h2

theorem hexBytes_tame (l : List Byte) (n : Nat) (t : List Byte) (h : hexBytes l n = .ok t) : TameText t := by
  refine forN_tame _ ?_ n 0 [] t tame_nil h
  intro j t t' ht h
  obtain ⟨x, _, h⟩ := bind_eq_ok.mp h
  rw [← Except.ok.inj h]
  simp only [tame_append]
  exact ⟨⟨ht, tame_fmtHex2 x⟩, by decide⟩

local macro "pieces" : tactic => `(tactic| ((try simp only [tame_append]); (repeat' apply And.intro); all_goals first
  | assumption | decide | exact tame_fmtHex2 _ | exact tame_yesNo _ | exact tame_int _ | exact tame_dec _ | exact tame_hex _
  | exact tame_medium _ | exact (tame_fixed _ 0 0).1 | exact (tame_fixed FixedData.zero _ 0).2.1 | exact (tame_fixed FixedData.zero 0 _).2.2))

theorem framePrint_tame : ∀ (fs : List Frame) (buf : List Byte) (r : Int) (t : List Byte) (fs' : List Frame),
    framePrintLoop buf fs = .ok (r, t, fs') → TameText t
  | [], buf, r, t, fs', h => by
    obtain ⟨_, h⟩ := Prod.mk.inj (Except.ok.inj h)
    rw [← (Prod.mk.inj h).1]
    exact tame_nil
  | f :: fs, buf, r, t, fs', h => by
    unfold framePrintLoop at h
    obtain ⟨⟨len, f', buf'⟩, _, h⟩ := bind_eq_ok.mp h
    dsimp only at h
    by_cases hl : len = -1
    · rw [if_pos hl] at h
      obtain ⟨_, h⟩ := Prod.mk.inj (Except.ok.inj h)
      rw [← (Prod.mk.inj h).1]
      exact tame_nil
    · rw [if_neg hl] at h
      obtain ⟨d, hd, h⟩ := bind_eq_ok.mp h
      obtain ⟨⟨r', rest, fs''⟩, h1, h⟩ := bind_eq_ok.mp h
      obtain ⟨_, h⟩ := Prod.mk.inj (Except.ok.inj h)
      rw [← (Prod.mk.inj h).1]
      have a1 := hexBytes_tame _ _ _ hd
      have a2 := framePrint_tame fs _ _ _ _ h1
      pieces

theorem headerPrint_tame (h : VarHeader) (t : List Byte) (hp : headerPrint h = .ok t) : TameText t := by
  unfold headerPrint at hp
  dsimp only at hp
  obtain ⟨id, _, hp⟩ := bind_eq_ok.mp hp
  obtain ⟨m1, _, hp⟩ := bind_eq_ok.mp hp
  obtain ⟨m0, _, hp⟩ := bind_eq_ok.mp hp
  obtain ⟨man, hm, hp⟩ := bind_eq_ok.mp hp
  obtain ⟨s1, _, hp⟩ := bind_eq_ok.mp hp
  obtain ⟨s0, _, hp⟩ := bind_eq_ok.mp hp
  rw [← Except.ok.inj hp]
  have hman : TameText man := by
    rw [decodeManufacturer_eq] at hm
    rw [← Except.ok.inj hm]
    have key : ∀ k : Fin 32, Tame (UInt8.ofNat (k.val + 64)) := by decide +kernel
    have k2 : ∀ n, Tame (UInt8.ofNat (n % 32 + 64)) := fun n => key ⟨n % 32, Nat.mod_lt _ (by decide)⟩
    intro c hc
    simp only [List.mem_cons, List.not_mem_nil, or_false] at hc
    rcases hc with rfl | rfl | rfl <;> exact k2 _
  pieces

theorem recordPrint_tame (i : Nat) (r : Record) (t : List Byte) (h : recordPrint i r = .ok t) : TameText t := by
  have hf : TameText (if r.dif &&& 0x30 ≠ 0 then cs! "Value during error state" else cs! "Instantaneous value") := by split <;> decide
  unfold recordPrint at h
  dsimp only at h
  by_cases hs : r.dif = 0x0F ∨ r.dif = 0x1F
  · rw [if_pos hs] at h
    obtain ⟨d, hd, h⟩ := bind_eq_ok.mp h
    rw [← Except.ok.inj h]
    have a1 := hexBytes_tame _ _ _ hd
    have a2 : TameText (if r.dif = 0x1F then cs! "mbus_data_variable_print: More records follow in next telegram\n" else []) := by split <;> decide
    pieces
  · rw [if_neg hs] at h
    obtain ⟨t1, h1, h⟩ := bind_eq_ok.mp h
    obtain ⟨t2, h2, h⟩ := bind_eq_ok.mp h
    rw [← Except.ok.inj h]
    have a1 : TameText t1 := by
      refine forN_tame _ ?_ _ _ _ _ ?_ h1
      · intro j t t' ht h
        obtain ⟨x, _, h⟩ := bind_eq_ok.mp h
        rw [← Except.ok.inj h]
        unfold difePrint
        dsimp only
        pieces
      · pieces
    have a2 : TameText t2 := by
      refine forN_tame _ ?_ _ _ _ _ ?_ h2
      · intro j t t' ht h
        obtain ⟨x, _, h⟩ := bind_eq_ok.mp h
        rw [← Except.ok.inj h]
        unfold vifePrint
        dsimp only
        pieces
      · pieces
    pieces

theorem recordsPrint_tame : ∀ (rs : List Record) (i : Nat) (t : List Byte), recordsPrint i rs = .ok t → TameText t
  | [], _, t, h => by rw [← Except.ok.inj h]; exact tame_nil
  | r :: rs, i, t, h => by
    unfold recordsPrint at h
    obtain ⟨t1, h1, h⟩ := bind_eq_ok.mp h
    obtain ⟨t2, h2, h⟩ := bind_eq_ok.mp h
    rw [← Except.ok.inj h]
    exact tame_append.mpr ⟨recordPrint_tame i r t1 h1, recordsPrint_tame rs _ t2 h2⟩

theorem fixedPrint_tame (x : FixedData) (o : Int × List Byte) (h : fixedPrint x = .ok o) : TameText o.2 := by
  unfold fixedPrint at h
  dsimp only at h
  obtain ⟨id, _, h⟩ := bind_eq_ok.mp h
  obtain ⟨c1, h1, h⟩ := bind_eq_ok.mp h
  obtain ⟨c2, h2, h⟩ := bind_eq_ok.mp h
  rw [(counter_runs x.status x.cnt1Val).1] at h1
  rw [(counter_runs x.status x.cnt2Val).1] at h2
  have a1 : TameText c1 := by rw [← Except.ok.inj h1]; exact tame_counter _ _
  have a2 : TameText c2 := by rw [← Except.ok.inj h2]; exact tame_counter _ _
  rw [← Except.ok.inj h]
  dsimp only
  pieces

/-- C133 for the dumps `mbus_frame_print` and `mbus_frame_data_print`: whatever the frames and the data, they print nothing but printable
characters and line feeds. -/
theorem C133_dumps :
    (∀ (uninit : Buf 256) (fs : List Frame) (o : Int × List Byte × List Frame), framePrint uninit fs = .ok o → TameText o.2.1) ∧
    (∀ (x : FrameData) (o : Int × List Byte), frameDataPrint x = .ok o → TameText o.2) := by
  constructor
  · intro uninit fs o h
    unfold framePrint at h
    split at h
    · rw [← Except.ok.inj h]; exact tame_nil
    · exact framePrint_tame fs _ _ _ _ h
  · intro x o h
    unfold frameDataPrint at h
    split at h
    · rw [← Except.ok.inj h]
      unfold errorPrint
      dsimp only
      pieces
    · split at h
      · exact fixedPrint_tame _ _ h
      · split at h
        · unfold variablePrint at h
          obtain ⟨t1, h1, h⟩ := bind_eq_ok.mp h
          obtain ⟨t2, h2, h⟩ := bind_eq_ok.mp h
          rw [← Except.ok.inj h]
          exact tame_append.mpr ⟨headerPrint_tame _ _ h1, recordsPrint_tame _ _ _ h2⟩
        · rw [← Except.ok.inj h]; exact tame_nil

/-! ### single values -/

theorem tame_dec2 (n : Nat) : TameText (dec2 n) := by
  have key : ∀ k : Fin 10, Tame (UInt8.ofNat (48 + k.val)) := by decide +kernel
  intro c hc
  simp only [dec2, List.mem_cons, List.not_mem_nil, or_false] at hc
  rcases hc with rfl | rfl
  · exact key ⟨n / 10 % 10, Nat.mod_lt _ (by decide)⟩
  · exact key ⟨n % 10, Nat.mod_lt _ (by decide)⟩

theorem tame_dateText (t : Tm) : TameText (dateText t) := by
  unfold dateText dec4
  simp only [tame_append]
  exact ⟨⟨⟨⟨⟨tame_dec2 _, tame_dec2 _⟩, by decide⟩, tame_dec2 _⟩, by decide⟩, tame_dec2 _⟩

theorem tame_dateTimeText (t : Tm) : TameText (dateTimeText t) := by
  unfold dateTimeText
  simp only [tame_append]
  exact ⟨⟨⟨⟨⟨⟨tame_dateText t, by decide⟩, tame_dec2 _⟩, by decide⟩, tame_dec2 _⟩, by decide⟩, tame_dec2 _⟩

theorem tame_hexDump : ∀ l : List Byte, TameText (hexDump l)
  | [] => tame_nil
  | [b] => tame_fmtHex2 b
  | b :: c :: bs => by
    show TameText (fmtHex2 b ++ (cs! " " ++ hexDump (c :: bs)))
    exact tame_append.mpr ⟨tame_fmtHex2 b, tame_append.mpr ⟨by decide, tame_hexDump (c :: bs)⟩⟩

/-- C133, the limits: the value strings of `mbus_data_record_value` are made of printable characters too, except those of text records: they
are the characters the meter sent (up to a NUL), whatever these are. -/
theorem C133_values (r : Record) (hr : Delivered r) (buff : List Byte) (hb : buff.length = 768) :
    ((∀ s, meaning r ≠ .text s) → ∃ t, recordValue buff r = .ok t ∧ TameText t) ∧
    (∀ s, meaning r = .text s → recordValue buff r = .ok (upToNul s)) := by
  obtain ⟨h1, h2⟩ := C68_text r hr buff hb
  constructor
  · intro h
    rw [h2 h] at h1
    refine ⟨_, h1, ?_⟩
    unfold shown
    cases hm : meaning r with
    | empty => exact tame_nil
    | int v => exact tame_int v
    | real x => exact tame_fmtF x
    | date t => exact tame_dateText t
    | dateTime t => exact tame_dateTimeText t
    | bcd ds =>
      dsimp only
      split
      · exact tame_hex _
      · exact tame_int _
    | text s => exact absurd hm (h s)
    | raw bs => exact tame_hexDump bs
    | selection =>
      have : ∀ b : Byte, TameText (fmtHex2L b) := forall_byte (by decide +kernel)
      exact tame_append.mpr ⟨tame_append.mpr ⟨by decide, this _⟩, by decide⟩
  · intro s hs
    unfold shown at h1
    rw [hs] at h1
    exact h1

/-- A record with the text "ESC[2J" (on many terminals: clear the screen), and one whose unit is this text. -/
def clearValue : Rec := .value 0x0D [] 0x13 [] [] [4, 74, 50, 91, 27]
def clearUnit : Rec := .value 0x01 [] 0x7C [74, 50, 91, 27] [] [5]

theorem clear_tiles : Tiles (clearValue.encode ++ clearUnit.encode) [clearValue, clearUnit] := by
  have h2 : Tiles (clearUnit.encode ++ []) [clearUnit] := .cons
    (⟨by decide, by decide, by decide, by decide, by decide, by decide, by decide, by decide, by decide,
      by unfold DataFits; rw [if_neg (by decide)]; rfl⟩ : clearUnit.Legal) .nil
  rw [List.append_nil] at h2
  exact .cons (⟨by decide, by decide, by decide, by decide, by decide, by decide, by decide, by decide, by decide,
      by unfold DataFits; rw [if_pos (by decide)]; exact ⟨_, _, rfl, by decide⟩⟩ : clearValue.Legal) h2

/-- the telegram with both records -/
def clearTelegram : Frame := rsp 0x72 (hdr ++ (clearValue.encode ++ clearUnit.encode))
def clearItems : List Item := [(mkRec clearValue, cs! "Volume (m m^3)", none), (mkRec clearUnit, [27, 91, 50, 74], none)]
theorem clear_reads : Reads clearTelegram hdrHeader (clearItems.map (·.1)) := reads_rsp _ (by decide +kernel) _ clear_tiles

/-- C133 is false for `mbus_data_record_value` and `mbus_data_record_unit`: the escape sequence of the meter is returned unchanged. -/
theorem C133_raw : (∀ it ∈ clearItems, Delivered it.1) ∧
    (∀ buff : List Byte, buff.length = 768 → recordValue buff (mkRec clearValue) = .ok [27, 91, 50, 74]) ∧
    recordUnit (mkRec clearUnit) = .ok [27, 91, 50, 74] ∧ ¬ TameText [27, 91, 50, 74] := by
  have hd : ∀ it ∈ clearItems, Delivered it.1 := fun it h => clear_reads.delivered _ (List.mem_map_of_mem h)
  refine ⟨hd, ?_, by decide +kernel, by decide⟩
  intro buff hb
  rw [(C133_values (mkRec clearValue) (hd _ (List.mem_cons_self ..)) buff hb).2 [27, 91, 50, 74] (by rfl)]
  decide

theorem clear_writable : ∀ it ∈ clearItems, Spec.Writable it ∧ StampOk it.2.2 := by
  intro it hit
  simp only [clearItems, List.mem_cons, List.not_mem_nil, or_false] at hit
  rcases hit with rfl | rfl
  · exact ⟨⟨by decide +kernel, fun _ => ⟨by decide, by decide +kernel⟩⟩, by intro t h; cases h⟩
  · exact ⟨⟨by decide +kernel, fun _ => ⟨by decide, by decide +kernel⟩⟩, by intro t h; cases h⟩

/-! ### the tools -/

theorem PrintedAs.tame {α : Type} {x : C α} {done : List Byte → α} {doc : List Byte} {fate : XmlFate} (h : PrintedAs x done doc fate)
    (hd : TameText doc) {o : α} (ho : x = .ok o) : ∃ text, o = done text ∧ TameText text := by
  cases fate with
  | outside => obtain ⟨n, i, h⟩ := h; rw [ho] at h; cases h
  | complete => exact ⟨doc, Except.ok.inj (ho.symm.trans h), hd⟩
  | cut n => exact ⟨doc.take n, Except.ok.inj (ho.symm.trans h.2), tame_take hd n⟩

theorem zip_stamps {α : Type} (xs : List α) (units : List (List Byte)) : ∀ it ∈ xs.zip (units.map (·, (none : Option (List Byte)))), it.2.2 = none := by
  intro it hit
  obtain ⟨u, _, hu⟩ := List.mem_map.mp (List.of_mem_zip (a := it.1) (b := it.2) hit).2
  rw [← hu]

/-- C133 for the output of `mbus_parse_hex` and `mbus_parse`, with and without `-n`: whatever telegram they are given, they print nothing
but printable characters and line feeds. -/
theorem C133_parse (uninit : Buf 4096) (dump : Buf 256) (junk0 : Nat → Byte) (junk : Nat → Nat → Byte) (file : List Byte)
    (c a : Byte) (p : List Byte) (hl : Spec.Telegram.Legal (.data c a 0x72 p)) (hx : HexText file (Spec.Telegram.data c a 0x72 p).wire)
    (hf : file.length ≤ 4096) (h256 : (Spec.Telegram.data c a 0x72 p).wire.length ≤ 256) (hdir : c &&& 0x40 = 0) (h12 : 12 ≤ p.length)
    (h : VarHeader) (hh : HeaderIs h p) (rs : List Rec) (ht : Tiles (p.drop 12) rs) (units : List (List Byte)) (hu : units.length = rs.length)
    (hs : ∀ it ∈ (rs.map mkRec).zip (units.map (·, none)), Spec.Writable it) (hst : ∀ r ∈ rs, StorageOk (mkRec r)) :
    ∀ normalized o, (parseHexTool uninit dump junk0 junk normalized file = .ok o ∨
      parseTool dump junk0 junk normalized (Spec.Telegram.data c a 0x72 p).wire = .ok o) → TameText o.2 := by
  have hline : TameText (telegramLine (.data c a 0x72 p) ++ [10]) := by
    obtain ⟨g, h1, h3, h4⟩ := parsed_telegram Frame.zero _ hl (by simp)
    obtain ⟨fs, p1, _⟩ := C96_frame_print_partial dump [g] [.data c a 0x72 p] (by simp) (.cons ⟨hl, h3, h4, h256⟩ .nil)
    have := C133_dumps.1 dump _ _ p1
    simpa [unlines] using this
  have d1 : ∀ name, TameText (document (slaveGroup h name (mediumLookup h.medium) :: recordGroupsCut none 0 ((rs.map mkRec).zip (units.map (·, none))))) :=
    fun name => tame_document _ fun g hg => by
      rcases List.mem_cons.mp hg with rfl | hg
      · exact slaveGroup_tame h name _
      · exact recordGroupsCut_tame _ _ (fun it hit t e => by rw [zip_stamps _ _ it hit] at e; cases e) _ g hg
  have d2 : ∀ name ns, TameText (document (slaveGroup h name (mediumLookup h.medium) :: normGroupsCut 0 ns)) :=
    fun name ns => tame_document _ fun g hg => by
      rcases List.mem_cons.mp hg with rfl | hg
      · exact slaveGroup_tame h name _
      · exact normGroupsCut_tame _ _ g hg
  intro normalized o ho
  cases normalized with
  | false =>
    rcases ho with ho | ho
    · obtain ⟨name, _, hp⟩ := C98_hex_exact uninit dump junk0 junk file c a p hl hx hf hdir h12 h hh rs ht units hu hs
      obtain ⟨t, rfl, h⟩ := PrintedAs.tame hp (d1 name) ho
      exact h
    · obtain ⟨name, _, hp⟩ := C98_binary_exact dump junk0 junk c a p hl h256 hdir h12 h hh rs ht units hu hs
      obtain ⟨t, rfl, h⟩ := PrintedAs.tame hp (d1 name) ho
      exact tame_append.mpr ⟨hline, h⟩
  | true =>
    rcases ho with ho | ho
    · obtain ⟨name, ns, _, _, hp⟩ := C98_hex_normalized_exact uninit dump junk0 junk file c a p hl hx hf hdir h12 h hh rs ht hst
      obtain ⟨t, rfl, h⟩ := PrintedAs.tame hp (d2 name ns) ho
      exact h
    · obtain ⟨name, ns, _, _, hp⟩ := C98_binary_normalized_exact dump junk0 junk c a p hl h256 hdir h12 h hh rs ht hst
      obtain ⟨t, rfl, h⟩ := PrintedAs.tame hp (d2 name ns) ho
      exact tame_append.mpr ⟨hline, h⟩

/-! Direct instances: the telegram with the escape sequences. -/
example (junk0 : Nat → Byte) (junk : Nat → Nat → Byte) (o : XmlOut) (ho : frameXml junk0 junk (clearTelegram, none) [] = .ok o) :
    ∃ m text, o.text = some m ∧ cstr m = .ok text ∧ TameText text :=
  C133_frame junk0 junk (clearTelegram, none) [] hdrHeader clearItems [] clear_reads (by decide) .nil
    (by intro i hi; rw [List.mem_singleton.mp hi]; exact clear_writable)
    (by intro i hi it hit s h
        rw [List.mem_singleton.mp hi] at hit
        simp only [clearItems, List.mem_cons, List.not_mem_nil, or_false] at hit
        rcases hit with rfl | rfl <;> cases h) (by decide) (by decide) o ho
example (junk0 : Nat → Byte) (junk : Nat → Nat → Byte) (x : FrameData) (hx : x.type = DATA_VARIABLE) (hr : x.var.records = clearItems.map (·.1)) :=
  C133_normalized junk0 junk x hx (by
    intro r h
    rw [hr] at h
    simp only [clearItems, List.map_cons, List.map_nil, List.mem_cons, List.not_mem_nil, or_false] at h
    rcases h with rfl | rfl
    · exact ⟨C133_raw.1 _ (List.mem_cons_self ..), by decide, by decide +kernel⟩
    · exact ⟨C133_raw.1 (mkRec clearUnit, [27, 91, 50, 74], none) (by simp [clearItems]), by decide, by decide +kernel⟩)
/-- the document of the telegram is made, the escape characters shown as blanks -/
example : escape (upToNul (shown (mkRec clearValue))) = cs! " [2J" := by decide +kernel
example := (C133_values (mkRec clearValue) (C133_raw.1 _ (List.mem_cons_self ..)) (List.replicate 768 0) (by decide +kernel)).2 [27, 91, 50, 74] (by rfl)
example := (C133_values volumeItem.1 volume_delivered (List.replicate 768 0) (by decide +kernel)).1 (by intro s h; cases h)
example (uninit : Buf 4096) (dump : Buf 256) (junk0 : Nat → Byte) (junk : Nat → Nat → Byte) :=
  C133_parse uninit dump junk0 junk (hexDump (Spec.Telegram.data 0x08 1 0x72 (hdr ++ (clearValue.encode ++ clearUnit.encode))).wire) 0x08 1
    (hdr ++ (clearValue.encode ++ clearUnit.encode)) ⟨by decide, by decide⟩ (hexText_dump _) (by decide +kernel) (by decide +kernel) (by decide) (by decide +kernel)
    hdrHeader (by unfold HeaderIs; decide +kernel) [clearValue, clearUnit] clear_tiles [cs! "Volume (m m^3)", [27, 91, 50, 74]] rfl
    (fun it hit => (clear_writable it hit).1) (by
      intro r h
      simp only [List.mem_cons, List.not_mem_nil, or_false] at h
      rcases h with rfl | rfl <;> exact ⟨by decide, by decide +kernel⟩)

end Mbus
