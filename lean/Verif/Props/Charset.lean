import Verif.Spec.Charset
import Verif.Props.XmlInject
import Verif.Lemmas.LocaleExact
/-
Property theorems C134: the declared character set of the documents.  `asLatin1` and `AsUtf8` are from Spec/Charset.lean; `AsciiText t`: all
bytes of `t` are below 128.
-/
namespace Mbus
open Spec

/-! ### readings -/

/-- A text of ASCII characters is the same text for both readers. -/
theorem C134_ascii (t : List Byte) (h : AsciiText t) : AsUtf8 t (asLatin1 t) := by
  refine ⟨fun c hc => ?_, ?_⟩
  · obtain ⟨b, _, rfl⟩ := List.mem_map.mp hc
    have := b.toNat_lt
    omega
  · induction t with
    | nil => rfl
    | cons b t ih =>
      have hb := h b (List.mem_cons_self ..)
      rw [asLatin1, List.map_cons, List.flatMap_cons, ← asLatin1, ← ih (fun c hc => h c (List.mem_cons_of_mem _ hc))]
      unfold utf8Char
      rw [if_pos hb]
      simp

theorem utf8Char_length (c : Nat) : 1 ≤ (utf8Char c).length ∧ ((utf8Char c).length = 1 ↔ c < 0x80) := by
  unfold utf8Char
  split
  · simp; omega
  · split
    · simp; omega
    · split <;> simp <;> omega

/-- ... and only such a text: otherwise the reader of UTF-8 sees fewer characters. -/
theorem C134_only_ascii (t : List Byte) (h : AsUtf8 t (asLatin1 t)) : AsciiText t := by
  have hl := congrArg List.length h.2
  have key : ∀ cs : List Nat, cs.length ≤ (cs.flatMap utf8Char).length ∧ ((cs.flatMap utf8Char).length = cs.length → ∀ c ∈ cs, c < 0x80) := by
    intro cs
    induction cs with
    | nil => simp
    | cons c cs ih =>
      rw [List.flatMap_cons, List.length_append, List.length_cons]
      have := utf8Char_length c
      refine ⟨by omega, fun e x hx => ?_⟩
      rcases List.mem_cons.mp hx with rfl | hx
      · exact this.2.mp (by omega)
      · exact ih.2 (by omega) x hx
  intro b hb
  exact (key (asLatin1 t)).2 (by rw [← hl]; simp [asLatin1]) b.toNat (List.mem_map_of_mem hb)

/-! ### labels -/

theorem ascii_append {a b : List Byte} : AsciiText (a ++ b) ↔ AsciiText a ∧ AsciiText b :=
  ⟨fun h => ⟨fun c hc => h c (List.mem_append_left _ hc), fun c hc => h c (List.mem_append_right _ hc)⟩,
    fun h c hc => (List.mem_append.mp hc).elim (h.1 c) (h.2 c)⟩

theorem ascii_take {t : List Byte} (h : AsciiText t) (n : Nat) : AsciiText (t.take n) := fun c hc => h c (List.mem_of_mem_take hc)

theorem ascii_dec (n : Nat) : AsciiText (decDigits n) := fun c hc => by
  have := decDigits_digit n c hc
  omega

theorem ascii_hex (n : Nat) : AsciiText (hexDigits n) := by
  have key : ∀ k : Fin 16, (hexDigitU k.val).toNat < 128 := by decide +kernel
  fun_induction hexDigits n with
  | case1 n h => intro c hc; rw [List.mem_singleton.mp hc]; exact key ⟨n, h⟩
  | case2 n h ih =>
    refine ascii_append.mpr ⟨ih, ?_⟩
    intro c hc; rw [List.mem_singleton.mp hc]; exact key ⟨n % 16, Nat.mod_lt _ (by decide)⟩

theorem ascii_int (z : Int) : AsciiText (fmtInt z) := fun c hc => by
  have := fmtInt_printable z c hc
  omega

theorem ascii_fmtHex2 (b : Byte) : AsciiText (fmtHex2 b) := forall_byte (P := fun b => AsciiText (fmtHex2 b)) (by decide +kernel) b

theorem ascii_prefix (e : Int) : AsciiText (unitPrefix e) := by
  unfold unitPrefix
  repeat' split
  all_goals first | decide | exact ascii_append.mpr ⟨ascii_append.mpr ⟨by decide, ascii_int e⟩, by decide⟩

/-- The names of media, ... -/
theorem C134_medium (m : Byte) : AsciiText (mediumLookup m) ↔ m ≠ 0x06 ∧ m ≠ 0x15 := by
  revert m
  exact forall_byte (by decide +kernel)

/-- ... of application errors ... -/
theorem C134_error (e : Int) : AsciiText (errorLookup e) ↔ e ≠ 5 ∧ e ≠ 6 := by
  have hx : AsciiText (fmtHexInt e) := by
    unfold fmtHexInt padZero
    refine ascii_append.mpr ⟨fun c hc => ?_, ascii_hex _⟩
    rw [(List.mem_replicate.mp hc).2]
    decide
  have hu : AsciiText (snp 256 (cs! "Unknown error (0x" ++ fmtHexInt e ++ cs! ")")) :=
    ascii_take (ascii_append.mpr ⟨ascii_append.mpr ⟨by decide, hx⟩, by decide⟩) _
  unfold errorLookup errorText
  by_cases h : e < 0
  · rw [if_pos h]
    exact iff_of_true hu ⟨by omega, by omega⟩
  · rw [if_neg h]
    obtain ⟨n, rfl⟩ := Int.eq_ofNat_of_zero_le (Int.not_lt.mp h)
    rw [show ((n : Int).toNat) = n from rfl]
    by_cases h5 : n = 5
    · subst h5
      exact iff_of_false (by decide +kernel) (fun h => h.1 rfl)
    · by_cases h6 : n = 6
      · subst h6
        exact iff_of_false (by decide +kernel) (fun h => h.2 rfl)
      · refine iff_of_true ?_ ⟨fun h => h5 (by exact_mod_cast h), fun h => h6 (by exact_mod_cast h)⟩
        unfold caseOf
        have key : ∀ q ∈ errorCases, q.1 = 5 ∨ q.1 = 6 ∨ AsciiText (snp 256 q.2) := by decide +kernel
        cases hl : errorCases.lookup n with
        | none => exact hu
        | some t =>
          have : (n, t) ∈ errorCases := by
            clear key hu hx h
            generalize errorCases = l at hl
            induction l with
            | nil => cases hl
            | cons q l ih =>
              rw [List.lookup_cons] at hl
              cases hq : n == q.1 with
              | true =>
                rw [hq] at hl
                rw [show (n, t) = q from Prod.ext (by simpa using hq) (Option.some.inj hl).symm]
                exact List.mem_cons_self ..
              | false =>
                rw [hq] at hl
                exact List.mem_cons_of_mem _ (ih hl)
          rcases key _ this with e | e | e
          · exact absurd e h5
          · exact absurd e h6
          · exact e

/-- ... and of the units of fixed data are ASCII with these exceptions; ... -/
theorem C134_fixed (u : Int) : AsciiText (fixedUnit u) ↔ u % 64 ≠ 0x38 := by
  have key : ∀ k : Fin 64, AsciiText (snp 256 ((caseOf k.val fixedUnitCases).getD (cs! "unknown"))) ↔ k.val ≠ 0x38 := by decide +kernel
  unfold fixedUnit fixedUnitText
  have h0 := Int.emod_nonneg u (show (64 : Int) ≠ 0 by decide)
  have h1 := Int.emod_lt_of_pos u (show (0 : Int) < 64 by decide)
  have := key ⟨(u % 64).toNat, by omega⟩
  dsimp only at this
  rw [this]
  omega

/-- ... those of units of records without custom text, and all other labels, always are. -/
theorem C134_unit (r : Record) (u : List Byte) (h : recordUnit r = .ok u) (hc : r.vif ≠ 0x7C ∧ r.vif ≠ 0xFC) : AsciiText u := by
  have hp := ascii_prefix
  have h1 : ∀ b : Byte, AsciiText (fbText b) := forall_byte (by decide +kernel)
  have h2 : ∀ b : Byte, AsciiText (fdText b) := forall_byte (by decide +kernel)
  have h3 : ∀ b : Byte, AsciiText (vifUnitText b) := forall_byte (by decide +kernel)
  unfold recordUnit at h
  obtain ⟨t, ht, h⟩ := bind_eq_ok.mp h
  rw [← Except.ok.inj h]
  refine ascii_take ?_ _
  unfold vibUnitLookup at ht
  obtain ⟨s, hs, ht⟩ := bind_eq_ok.mp ht
  rw [← Except.ok.inj ht]
  refine ascii_take ?_ _
  unfold vibUnitText at hs
  obtain ⟨v0, _, hs⟩ := bind_eq_ok.mp hs
  split at hs
  · split at hs
    · rw [← Except.ok.inj hs]; decide
    · rw [← Except.ok.inj hs]; exact ascii_take (h1 _) _
  · split at hs
    · split at hs
      · rw [← Except.ok.inj hs]; decide
      · rw [← Except.ok.inj hs]; exact ascii_take (h2 _) _
    · rw [if_neg hc.1, if_neg (fun h => hc.2 h.1)] at hs
      rw [← Except.ok.inj hs]
      exact ascii_take (h3 _) _

theorem C134_names (h : VarHeader) (r : Record) (x : FixedData) (st : Int) : (∀ t, productName h = .ok t → AsciiText t) ∧ AsciiText (functionLabel r) ∧
    AsciiText (fixedMedium x) ∧ AsciiText (fixedFunction st) :=
  ⟨fun _ h => productName_ascii h, function_ascii _ (functionLabel_mem r), fixed_ascii x st⟩

/-- The unit names of normalised records are ASCII except those of temperatures in degrees. -/
theorem C134_normalized : ∀ row ∈ vifTable ++ fixedTable, (AsciiText row.unit ↔ row.unit ≠ cs! "°C" ∧ row.unit ≠ cs! "°F") ∧ AsciiText row.quantity := by
  decide +kernel

/-- What the exceptions look like: read as UTF-8 they have a degree sign (0xB0) or an acute accent (0xB4); read in the character set that the
documents declare there is another character, `Â` (0xC2), before it. -/
theorem C134_wrong_reading :
    ∀ t ∈ [(mediumLookup 0x06, asLatin1 (cs! "Warm water (30-90"), 0xB0, asLatin1 (cs! "C)")), (mediumLookup 0x15, asLatin1 (cs! "Hot water (>90"), 0xB0, asLatin1 (cs! "C)")),
      (errorLookup 5, asLatin1 (cs! "More than 10 DIFE"), 0xB4, asLatin1 (cs! "s")), (errorLookup 6, asLatin1 (cs! "More than 10 VIFE"), 0xB4, asLatin1 (cs! "s")),
      (fixedUnit 0x38, asLatin1 (cs! "1e-3 "), 0xB0, asLatin1 (cs! "C")), (cs! "°C", [], 0xB0, asLatin1 (cs! "C")), (cs! "°F", [], 0xB0, asLatin1 (cs! "F"))],
      AsUtf8 t.1 (t.2.1 ++ t.2.2.1 :: t.2.2.2) ∧ asLatin1 t.1 = t.2.1 ++ 0xC2 :: t.2.2.1 :: t.2.2.2 := by
  decide +kernel

/-! ### documents -/

theorem ascii_flatMap {α : Type} (xs : List α) (f : α → List Byte) : AsciiText (xs.flatMap f) ↔ ∀ x ∈ xs, AsciiText (f x) := by
  constructor
  · intro h x hx c hc
    exact h c (List.mem_flatMap.mpr ⟨x, hx, hc⟩)
  · intro h c hc
    obtain ⟨x, hx, hc⟩ := List.mem_flatMap.mp hc
    exact h x hx c hc

theorem ascii_escape (s : List Byte) : AsciiText (escape s) ↔ AsciiText s := by
  have key : ∀ c : Byte, AsciiText (escape1 c) ↔ c.toNat < 128 := forall_byte (by decide +kernel)
  show AsciiText (s.flatMap escape1) ↔ _
  rw [ascii_flatMap]
  exact ⟨fun h c hc => (key c).mp (h c hc), fun h c hc => (key c).mpr (h c hc)⟩

theorem ascii_flag (n : Nat) : AsciiText (flagLetters n) := by
  have key : ∀ k : Fin 32, (UInt8.ofNat (64 + k.val)).toNat < 128 := by decide +kernel
  intro c hc
  simp only [flagLetters, List.mem_cons, List.not_mem_nil, or_false] at hc
  rcases hc with rfl | rfl | rfl
  · exact key ⟨n / 1024 % 32, Nat.mod_lt _ (by decide)⟩
  · exact key ⟨n / 32 % 32, Nat.mod_lt _ (by decide)⟩
  · exact key ⟨n % 32, Nat.mod_lt _ (by decide)⟩

/-- All texts of a group are ASCII. -/
def GroupAscii (g : Group) : Prop :=
  AsciiText g.name ∧ (∀ a ∈ g.attrs, AsciiText a.1 ∧ AsciiText a.2) ∧ ∀ l ∈ g.leaves, AsciiText l.1 ∧ AsciiText l.2

theorem ascii_render (g : Group) : AsciiText g.render ↔ GroupAscii g := by
  have ha : ∀ a, AsciiText (attr a) ↔ AsciiText a.1 ∧ AsciiText a.2 := by
    intro a
    show AsciiText (cs! " " ++ a.1 ++ cs! "=\"" ++ a.2 ++ cs! "\"") ↔ _
    simp only [ascii_append]
    exact ⟨fun h => ⟨h.1.1.1.2, h.1.2⟩, fun h => ⟨⟨⟨⟨by decide, h.1⟩, by decide⟩, h.2⟩, by decide⟩⟩
  have hl : ∀ l, AsciiText (leaf l) ↔ AsciiText l.1 ∧ AsciiText l.2 := by
    intro l
    unfold leaf
    simp only [ascii_append]
    exact ⟨fun h => ⟨h.1.2, h.1.1.1.2⟩, fun h => ⟨⟨⟨⟨⟨⟨by decide, h.1⟩, by decide⟩, h.2⟩, by decide⟩, h.1⟩, by decide⟩⟩
  unfold Group.render GroupAscii
  simp only [ascii_append, ascii_flatMap, ha, hl]
  exact ⟨fun h => ⟨h.1.2, h.1.1.1.1.1.2, h.1.1.1.2⟩, fun h => ⟨⟨⟨⟨⟨⟨⟨by decide, h.1⟩, h.2.1⟩, by decide⟩, h.2.2⟩, by decide⟩, h.1⟩, by decide⟩⟩

theorem ascii_document (gs : List Group) : AsciiText (document gs) ↔ ∀ g ∈ gs, GroupAscii g := by
  unfold document
  simp only [ascii_append, ascii_flatMap, ascii_render]
  exact ⟨fun h => h.1.2, fun h => ⟨⟨by decide, h⟩, by decide⟩⟩

/-- The texts of a record are ASCII: unit label (if it is shown), value, time stamp. -/
def ItemAscii (it : Item) : Prop :=
  (¬ Special it.1 → AsciiText it.2.1) ∧ AsciiText (upToNul (shown it.1)) ∧ ∀ t, it.2.2 = some t → AsciiText t

theorem slaveGroup_ascii (h : VarHeader) (p m : List Byte) : GroupAscii (slaveGroup h p m) ↔ AsciiText p ∧ AsciiText m := by
  unfold GroupAscii slaveGroup
  simp only [List.mem_cons, List.not_mem_nil, or_false, forall_eq_or_imp, forall_eq, ascii_escape]
  constructor
  · rintro ⟨_, _, _, _, _, h4, h5, _⟩
    exact ⟨h4.2, h5.2⟩
  · rintro ⟨h1, h2⟩
    refine ⟨by decide, by simp, ⟨by decide, ascii_hex _⟩, ⟨by decide, ascii_flag _⟩, ⟨by decide, ascii_dec _⟩, ⟨by decide, h1⟩, ⟨by decide, h2⟩,
      ⟨by decide, ascii_dec _⟩, ⟨by decide, ascii_fmtHex2 _⟩, ⟨by decide, ?_⟩⟩
    exact (ascii_flatMap _ _).mpr fun b _ => ascii_fmtHex2 b

theorem recordGroup_ascii (id : Nat) (frame : Option Nat) (it : Item) :
    GroupAscii (recordGroup id frame it.1 it.2.1 it.2.2) ↔ ItemAscii it := by
  obtain ⟨r, u, stamp⟩ := it
  rw [recordGroup_form]
  unfold GroupAscii ItemAscii
  dsimp only
  constructor
  · rintro ⟨_, _, h3⟩
    refine ⟨fun hs => ?_, ?_, fun t e => ?_⟩
    · exact (ascii_escape u).mp (h3 (cs! "Unit", escape u) (by rw [if_neg hs]; simp)).2
    · exact (ascii_escape _).mp (h3 (cs! "Value", escape (upToNul (shown r))) (by simp)).2
    · exact (h3 (cs! "Timestamp", t) (by rw [e]; simp)).2
  · rintro ⟨h1, h2, h3⟩
    refine ⟨by decide, ?_, ?_⟩
    · intro a ha
      rcases List.mem_cons.mp ha with rfl | ha
      · exact ⟨by dsimp only; decide, ascii_dec _⟩
      · obtain ⟨k, _, rfl⟩ := List.mem_map.mp ha
        exact ⟨by dsimp only; decide, ascii_dec _⟩
    · intro l hl
      simp only [List.mem_cons, List.mem_append] at hl
      rcases hl with (rfl | hl) | (rfl | hl)
      · exact ⟨by dsimp only; decide, function_ascii _ (functionLabel_mem r)⟩
      · by_cases hs : Special r
        · rw [if_pos hs] at hl; cases hl
        · rw [if_neg hs] at hl
          simp only [List.mem_cons, List.mem_append, List.not_mem_nil, or_false] at hl
          rcases hl with (rfl | hl) | rfl
          · exact ⟨by dsimp only; decide, ascii_dec _⟩
          · split at hl
            · cases hl
            · simp only [List.mem_cons, List.not_mem_nil, or_false] at hl
              rcases hl with rfl | rfl <;> exact ⟨by dsimp only; decide, ascii_dec _⟩
          · exact ⟨by dsimp only; decide, (ascii_escape u).mpr (h1 hs)⟩
      · exact ⟨by dsimp only; decide, (ascii_escape _).mpr h2⟩
      · obtain ⟨t, ht, rfl⟩ := List.mem_map.mp hl
        exact ⟨by dsimp only; decide, h3 t (Option.mem_toList.mp ht)⟩

theorem recordGroups_ascii (frame : Option Nat) (its : List Item) : ∀ start, (∀ g ∈ recordGroups frame start its, GroupAscii g) ↔ ∀ it ∈ its, ItemAscii it := by
  induction its with
  | nil => intro start; simp [recordGroups]
  | cons it its ih =>
    intro start
    obtain ⟨r, u, stamp⟩ := it
    rw [show recordGroups frame start ((r, u, stamp) :: its) = recordGroup start frame r u stamp :: recordGroups frame (start + 1) its from rfl,
      List.forall_mem_cons, List.forall_mem_cons, ih, ← recordGroup_ascii start frame (r, u, stamp)]

theorem readoutGroups_ascii (tss : List (List Item)) : (∀ g ∈ readoutGroups tss, GroupAscii g) ↔ ∀ its ∈ tss, ∀ it ∈ its, ItemAscii it := by
  have key : ∀ (tss : List (List Item)) (start k : Nat), (∀ g ∈ telegramGroups start k tss, GroupAscii g) ↔ ∀ its ∈ tss, ∀ it ∈ its, ItemAscii it := by
    intro tss
    induction tss with
    | nil => intro s k; simp [telegramGroups]
    | cons its tss ih =>
      intro s k
      rw [show telegramGroups s k (its :: tss) = recordGroups (some k) s its ++ telegramGroups (s + its.length) (k + 1) tss from rfl,
        List.forall_mem_append, List.forall_mem_cons, ih, recordGroups_ascii]
  unfold readoutGroups
  split
  · rw [recordGroups_ascii, List.forall_mem_cons]
    simp
  · exact key _ _ _

/-- C134 for the document of a readout (that of C56 and C131): both readers see the same text - that is, it is read as it was meant
whichever of the two character sets the reader assumes - iff the medium is none of the two whose names have a degree sign and all texts of the
records are ASCII. -/
theorem C134_document (h : VarHeader) (p : List Byte) (hp : productName h = .ok p) (tss : List (List Item)) :
    AsUtf8 (document (slaveGroup h p (mediumLookup h.medium) :: readoutGroups tss))
      (asLatin1 (document (slaveGroup h p (mediumLookup h.medium) :: readoutGroups tss))) ↔
    (h.medium ≠ 0x06 ∧ h.medium ≠ 0x15) ∧ ∀ its ∈ tss, ∀ it ∈ its, ItemAscii it := by
  have e : ∀ t : List Byte, AsUtf8 t (asLatin1 t) ↔ AsciiText t := fun t => ⟨C134_only_ascii t, C134_ascii t⟩
  rw [e, ascii_document, List.forall_mem_cons, slaveGroup_ascii, readoutGroups_ascii, C134_medium]
  have := productName_ascii hp
  exact ⟨fun h => ⟨h.1.2, h.2⟩, fun h => ⟨⟨this, h.1⟩, h.2⟩⟩

/-! ### a document that neither reader understands -/

/-- no byte 0x80-0xBF follows a byte below 0x80 (or begins the text, if `high` is false) -/
def follows : (high : Bool) → List Byte → Bool
  | _, [] => true
  | high, c :: t => (high || decide (c.toNat < 0x80) || decide (0xC0 ≤ c.toNat)) && follows (decide (0x80 ≤ c.toNat)) t

theorem follows_weaken : ∀ (t : List Byte) (high : Bool), follows false t = true → follows high t = true
  | [], _, _ => rfl
  | c :: t, high, h => by
    unfold follows at h ⊢
    simp only [Bool.false_or, Bool.and_eq_true] at h
    rw [h.2, Bool.and_true, Bool.or_assoc, h.1, Bool.or_true]

theorem follows_cons {b : Byte} {t : List Byte} (high : Bool) (hb : high = true ∨ b.toNat < 0x80 ∨ 0xC0 ≤ b.toNat) (ht : ∀ high, follows high t = true) :
    follows high (b :: t) = true := by
  unfold follows
  rw [ht, Bool.and_true]
  rcases hb with h | h | h <;> simp [h]

theorem follows_high {b : Byte} {t : List Byte} (hb : 0x80 ≤ b.toNat) (ht : ∀ high, follows high t = true) : follows true (b :: t) = true :=
  follows_cons true (.inl rfl) ht

theorem follows_two {a b : Byte} {t : List Byte} (high : Bool) (ha : high = true ∨ 0xC0 ≤ a.toNat) (h8 : 0x80 ≤ a.toNat)
    (ht : follows true (b :: t) = true) : follows high (a :: b :: t) = true := by
  unfold follows
  rw [decide_eq_true h8, ht, Bool.and_true]
  rcases ha with h | h <;> simp [h]

theorem follows_utf8 (cs : List Nat) : (∀ c ∈ cs, c < 0x110000) → follows false (cs.flatMap utf8Char) = true := by
  induction cs with
  | nil => intro _; rfl
  | cons c cs ih =>
    intro hc
    have ih' := ih (fun x hx => hc x (List.mem_cons_of_mem _ hx))
    have hw := fun high => follows_weaken _ high ih'
    have hlt := hc c (List.mem_cons_self ..)
    rw [List.flatMap_cons]
    generalize cs.flatMap utf8Char = t at *
    have two : ∀ k : Fin 64, 0x80 ≤ (UInt8.ofNat (0x80 + k.val)).toNat := by decide +kernel
    have lead : ∀ k : Fin 64, 0xC0 ≤ (UInt8.ofNat (0xC0 + k.val)).toNat := by decide +kernel
    have b : ∀ n, 0x80 ≤ (UInt8.ofNat (0x80 + n % 64)).toNat := fun n => two ⟨n % 64, Nat.mod_lt _ (by decide)⟩
    have last := fun n => follows_high (b n) hw
    unfold utf8Char
    split
    · rename_i h
      have e : (UInt8.ofNat c).toNat = c := UInt8.toNat_ofNat_of_lt' (show c < 256 by omega)
      exact follows_cons false (.inr (.inl (by rw [e]; exact h))) hw
    · split
      · have l := lead ⟨c / 64, by omega⟩
        dsimp only at l
        exact follows_two false (.inr l) (Nat.le_trans (by decide) l) (last _)
      · split
        · have l := lead ⟨0x20 + c / 4096, by omega⟩
          dsimp only at l
          rw [show 0xC0 + (0x20 + c / 4096) = 0xE0 + c / 4096 by omega] at l
          exact follows_two false (.inr l) (Nat.le_trans (by decide) l) (follows_two true (.inl rfl) (b _) (last _))
        · have l := lead ⟨0x30 + c / 262144, by omega⟩
          dsimp only at l
          rw [show 0xC0 + (0x30 + c / 262144) = 0xF0 + c / 262144 by omega] at l
          exact follows_two false (.inr l) (Nat.le_trans (by decide) l)
            (follows_two true (.inl rfl) (b _) (follows_two true (.inl rfl) (b _) (last _)))

/-- A telegram of a meter for warm water (medium 0x06) with a text record whose first byte is 0xB0. -/
def warmHeader : VarHeader := { hdrHeader with medium := 6 }
def degreeRec : Rec := .value 0x0D [] 0x13 [] [] [2, 53, 0xB0]
def degreeItem : Item := (mkRec degreeRec, cs! "Volume (m m^3)", none)
def warmTelegram : Frame := rsp 0x72 ([0x78, 0x56, 0x34, 0x12, 0x24, 0x40, 0x01, 0x06, 0x55, 0, 0, 0] ++ degreeRec.encode)
def warmDocument : List Byte := document (slaveGroup warmHeader [] (mediumLookup 6) :: readoutGroups [[degreeItem]])

theorem degree_legal : degreeRec.Legal :=
  ⟨by decide, by decide, by decide, by decide, by decide, by decide, by decide, by decide, by decide,
    by unfold DataFits; rw [if_pos (by decide)]; exact ⟨_, _, rfl, by decide⟩⟩

theorem warm_reads : Reads warmTelegram warmHeader [degreeItem.1] := by
  have hsz : warmTelegram.dataSize ≤ 252 := by decide
  have h12 : 12 ≤ warmTelegram.dataSize := by decide
  refine ⟨hsz, ?_⟩
  have hdrop : (payload warmTelegram).drop 12 = degreeRec.encode := by decide +kernel
  obtain ⟨v, hv, _, hrs, _⟩ := variableParse_complete warmTelegram FrameData.new.var hsz h12 [degreeRec]
    (by rw [hdrop]; have := Tiles.cons degree_legal .nil; rwa [List.append_nil] at this)
  obtain ⟨h, hh, _, he⟩ := variableParse_eq warmTelegram FrameData.new.var h12
  have hw : varHeader warmTelegram.data = .ok warmHeader := by rfl
  rw [hw] at hh
  injection hh with hh
  subst hh
  refine ⟨_, (C35_dispatch warmTelegram FrameData.new (by decide)).2.1 rfl (by omega) 0 v hv, rfl, ?_, hrs⟩
  rw [hv] at he
  obtain ⟨rs', _, e⟩ := varLoop_sound _ _ hsz _ _ _ _ he.symm
  rw [e]
  rfl

/-- The library's own labels are written in one character set and the texts of the meter are passed on in whatever set the meter uses: there are
telegrams whose document is right in neither reading.  The document of this one is not the UTF-8 form of any characters, and the reader who takes
it for what it declares sees "Warm water (30-90Â°C)". -/
theorem C134_neither (junk0 : Nat → Byte) (junk : Nat → Nat → Byte) :
    (∃ m, frameXml junk0 junk (warmTelegram, none) [] = .ok ⟨some m, false, []⟩ ∧ warmDocument ++ [0] <+: m) ∧
    (∀ cs, ¬ AsUtf8 warmDocument cs) ∧
    asLatin1 (cs! "<Medium>Warm water (30-90") ++ 0xC2 :: 0xB0 :: asLatin1 (cs! "C)</Medium>") <:+: asLatin1 warmDocument ∧
    asLatin1 (cs! "<Value>") ++ 0xB0 :: asLatin1 (cs! "5</Value>") <:+: asLatin1 warmDocument := by
  refine ⟨?_, ?_, by decide +kernel, by decide +kernel⟩
  · obtain ⟨m, p, h1, h2, h3⟩ := C56_frame_partial junk0 junk (warmTelegram, none) [] warmHeader [degreeItem] [] warm_reads (by simp [degreeItem]) .nil
      (by
        intro i hi it hit
        have : i = [degreeItem] := by simpa using hi
        subst this
        rw [List.mem_singleton.mp hit]
        refine ⟨⟨by decide +kernel, fun _ => ⟨by decide, by decide +kernel⟩, C56_plain_partial _ _ (warm_reads.delivered _ (by simp)) (by decide +kernel) (.inr ?_)⟩, ?_⟩
        · refine ⟨by decide +kernel, by decide +kernel⟩
        · intro t h
          cases h)
      (by decide) (by decide)
    have hp : productName warmHeader = .ok [] := by decide +kernel
    rw [← Except.ok.inj (hp.symm.trans h2)] at h3
    exact ⟨m, h1, h3⟩
  · rintro cs ⟨h1, h2⟩
    have := follows_utf8 cs h1
    rw [← h2] at this
    exact absurd this (by decide +kernel)

/-! ### direct instances -/

example : AsUtf8 (cs! "Volume (m m^3)") (asLatin1 (cs! "Volume (m m^3)")) := C134_ascii _ (by decide)
example : AsciiText (cs! "Water") := C134_only_ascii _ (by decide +kernel)
example : AsciiText (cs! "Volume (m m^3)") := C134_unit (mkRec (.value 0x01 [] 0x13 [] [] [5])) _ (by decide +kernel) (by decide)
example (p : List Byte) (hp : productName hdrHeader = .ok p) : AsUtf8 (document (slaveGroup hdrHeader p (mediumLookup 7) :: readoutGroups [[volumeItem]]))
    (asLatin1 (document (slaveGroup hdrHeader p (mediumLookup 7) :: readoutGroups [[volumeItem]]))) :=
  (C134_document hdrHeader p hp [[volumeItem]]).mpr ⟨by decide, by
    intro its h it hit
    rw [List.mem_singleton.mp h] at hit
    rw [List.mem_singleton.mp hit]
    exact ⟨fun _ => by decide, by decide +kernel, fun t ht => by injection ht with ht; subst ht; decide⟩⟩

end Mbus
