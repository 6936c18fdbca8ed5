import Verif.Lemmas.XmlInject
import Verif.Spec.XmlInject
import Verif.Props.XmlExact
import Verif.Props.XmlNorm
import Verif.Props.NormExact
/-
Property theorems C131: what an XML document tells its reader.  `SameHeader`, `SameShown`, `tagged` are from Spec/XmlInject.lean.
-/
namespace Mbus
open Spec

/-! ### numerals -/

theorem dec_inj {a b : Nat} (h : dec a = dec b) : a = b := by
  have := congrArg readNat h
  unfold dec at this
  rwa [readNat_decDigits, readNat_decDigits, Option.some.injEq] at this

theorem fmtInt_inj {a b : Int} (h : fmtInt a = fmtInt b) : a = b := by
  have := congrArg readInt h
  rwa [readInt_fmtInt, readInt_fmtInt, Option.some.injEq] at this

theorem hexDigitU_inj : ∀ i j : Fin 16, hexDigitU i.val = hexDigitU j.val → i = j := by decide +kernel

theorem hexDigits_ne (n : Nat) : hexDigits n ≠ [] := by
  unfold hexDigits
  split <;> simp

theorem hex_inj : ∀ {a b : Nat}, hexDigits a = hexDigits b → a = b := by
  intro a
  induction a using Nat.strongRecOn with
  | _ a ih =>
    intro b h
    by_cases ha : a < 16 <;> by_cases hb : b < 16
    · rw [hexDigits_lt a ha, hexDigits_lt b hb] at h
      have := hexDigitU_inj ⟨a, ha⟩ ⟨b, hb⟩ (by simpa using h)
      exact congrArg Fin.val this
    · rw [hexDigits_lt a ha, hexDigits_ge b hb] at h
      have := congrArg List.length h
      have h2 := List.length_pos_iff.mpr (hexDigits_ne (b / 16))
      rw [List.length_append, List.length_singleton, List.length_singleton] at this
      omega
    · rw [hexDigits_ge a ha, hexDigits_lt b hb] at h
      have := congrArg List.length h
      have h2 := List.length_pos_iff.mpr (hexDigits_ne (a / 16))
      rw [List.length_append, List.length_singleton, List.length_singleton] at this
      omega
    · rw [hexDigits_ge a ha, hexDigits_ge b hb] at h
      obtain ⟨h1, h2⟩ := List.append_inj' h rfl
      have h3 := ih (a / 16) (by omega) h1
      have h4 := hexDigitU_inj ⟨a % 16, Nat.mod_lt _ (by decide)⟩ ⟨b % 16, Nat.mod_lt _ (by decide)⟩ (by simpa using h2)
      have h4 := congrArg Fin.val h4
      dsimp only at h4
      omega

theorem escape1_blank (c : Byte) : escape1 (blank c) = escape1 c := by
  revert c
  exact forall_byte (by decide +kernel)

/-- Two texts are escaped the same way iff they differ at most in control characters. -/
theorem escape_eq_iff (a b : List Byte) : escape a = escape b ↔ SameText a b := by
  refine ⟨C23_injective a b, fun h => ?_⟩
  have key : ∀ s : List Byte, escape (s.map blank) = escape s := by
    intro s
    induction s with
    | nil => rfl
    | cons c s ih => rw [List.map_cons, escape_cons, escape_cons, escape1_blank, ih]
  rw [← key a, ← key b, h]

theorem dumps_inj {a b : List Byte} (hl : a.length = b.length) (h : a.flatMap fmtHex2 = b.flatMap fmtHex2) : a = b := by
  induction a generalizing b with
  | nil => cases b with
    | nil => rfl
    | cons => simp at hl
  | cons x a ih =>
    cases b with
    | nil => simp at hl
    | cons y b =>
      rw [List.flatMap_cons, List.flatMap_cons] at h
      have e : (fmtHex2 x).length = (fmtHex2 y).length := rfl
      obtain ⟨h1, h2⟩ := List.append_inj h e
      rw [fmtHex2_inj x y h1, ih (by simpa using hl) h2]

theorem flagLetters_eq_iff (a b : Nat) : flagLetters a = flagLetters b ↔ a % 32768 = b % 32768 := by
  have key : ∀ i j : Fin 32, UInt8.ofNat (64 + i.val) = UInt8.ofNat (64 + j.val) → i = j := by decide +kernel
  have k2 : ∀ i j, UInt8.ofNat (64 + i % 32) = UInt8.ofNat (64 + j % 32) → i % 32 = j % 32 := fun i j h =>
    congrArg Fin.val (key ⟨i % 32, Nat.mod_lt _ (by decide)⟩ ⟨j % 32, Nat.mod_lt _ (by decide)⟩ h)
  unfold flagLetters
  constructor
  · intro h
    simp only [List.cons.injEq, and_true] at h
    have h1 := k2 _ _ h.1
    have h2 := k2 _ _ h.2.1
    have h3 := k2 _ _ h.2.2
    omega
  · intro h
    have h1 : a / 1024 % 32 = b / 1024 % 32 := by omega
    have h2 : a / 32 % 32 = b / 32 % 32 := by omega
    have h3 : a % 32 = b % 32 := by omega
    rw [h1, h2, h3]

/-! ### groups -/

theorem slaveGroup_eq_iff (h k : VarHeader) (p p' m m' : List Byte) :
    slaveGroup h p m = slaveGroup k p' m' ↔ SameHeader h k p p' m m' := by
  unfold slaveGroup
  simp only [Group.mk.injEq, true_and, List.cons.injEq, Prod.mk.injEq, and_true]
  constructor
  · rintro ⟨h1, h2, h3, h4, h5, h6, h7, h8⟩
    exact ⟨leNat_inj _ _ (by rw [h.idBcd.size_eq, k.idBcd.size_eq]) (hex_inj h1), (flagLetters_eq_iff _ _).mp h2, UInt8.toNat_inj.mp (dec_inj h3),
      UInt8.toNat_inj.mp (dec_inj h6), fmtHex2_inj _ _ h7,
      List.reverse_inj.mp (dumps_inj (by simp [h.signature.size_eq, k.signature.size_eq]) h8), (escape_eq_iff _ _).mp h4, (escape_eq_iff _ _).mp h5⟩
  · rintro ⟨h1, h2, h3, h4, h5, h6, h7, h8⟩
    exact ⟨by rw [h1], (flagLetters_eq_iff _ _).mpr h2, by rw [h3], (escape_eq_iff _ _).mpr h7, (escape_eq_iff _ _).mpr h8, by rw [h4], by rw [h5], by rw [h6]⟩

theorem recordGroup_form (id : Nat) (frame : Option Nat) (r : Record) (unit : List Byte) (stamp : Option (List Byte)) :
    recordGroup id frame r unit stamp =
    { name := cs! "DataRecord"
      attrs := (cs! "id", dec id) :: frame.toList.map fun k => (cs! "frame", dec k)
      leaves :=
        (cs! "Function", functionLabel r) ::
        (if Special r then []
         else
          (cs! "StorageNumber", dec (storageOf r.dif (r.dife.bytes.take r.ndife))) ::
          (if r.dife.bytes.take r.ndife = [] then [] else [(cs! "Tariff", dec (tariffOf (r.dife.bytes.take r.ndife))), (cs! "Device", dec (deviceOf (r.dife.bytes.take r.ndife)))]) ++
          [(cs! "Unit", escape unit)]) ++
        (cs! "Value", escape (upToNul (shown r))) :: stamp.toList.map fun t => (cs! "Timestamp", t) } := by
  cases frame <;> cases stamp <;> rfl

theorem recordGroup_eq_iff (i j : Nat) (f g : Option Nat) (a b : Item) :
    recordGroup i f a.1 a.2.1 a.2.2 = recordGroup j g b.1 b.2.1 b.2.2 ↔ i = j ∧ f = g ∧ SameShown a b := by
  have ha : ∀ {i j : Nat} {f g : Option Nat}, ((cs! "id", dec i) :: f.toList.map fun k => (cs! "frame", dec k)) =
      ((cs! "id", dec j) :: g.toList.map fun k => (cs! "frame", dec k)) ↔ i = j ∧ f = g := by
    intro i j f g
    constructor
    · intro h
      simp only [List.cons.injEq, Prod.mk.injEq, true_and] at h
      refine ⟨dec_inj h.1, ?_⟩
      cases f <;> cases g
      · rfl
      · simp at h
      · simp at h
      · rename_i a b
        have : a = b := dec_inj (by simpa using h.2)
        rw [this]
    · rintro ⟨rfl, rfl⟩
      rfl
  have hs : ∀ {s t : Option (List Byte)}, (s.toList.map fun t => (cs! "Timestamp", t)) = (t.toList.map fun t => (cs! "Timestamp", t)) ↔ s = t := by
    intro s t
    cases s <;> cases t <;> simp
  obtain ⟨r, u, s⟩ := a
  obtain ⟨q, v, t⟩ := b
  rw [recordGroup_form, recordGroup_form]
  simp only [Group.mk.injEq, true_and]
  rw [ha]
  by_cases hr : Special r <;> by_cases hq : Special q
  · simp only [hr, hq, if_true, List.cons_append, List.nil_append, List.cons.injEq, Prod.mk.injEq, true_and, hs, escape_eq_iff]
    constructor
    · rintro ⟨⟨h1, h2⟩, h3, h4, h5⟩
      exact ⟨h1, h2, h3, iff_of_true hr hq, fun h => absurd hr h, fun h => absurd hr h, fun h => absurd hr h, fun h => absurd hr h,
        fun h => absurd hr h, h4, h5⟩
    · rintro ⟨h1, h2, h3, _, _, _, _, _, _, h4, h5⟩
      exact ⟨⟨h1, h2⟩, h3, h4, h5⟩
  · constructor
    · rintro ⟨_, h⟩
      simp [hr, hq] at h
    · rintro ⟨_, _, h⟩
      exact absurd (h.special.mp hr) hq
  · constructor
    · rintro ⟨_, h⟩
      simp [hr, hq] at h
    · rintro ⟨_, _, h⟩
      exact absurd (h.special.mpr hq) hr
  · generalize hd : r.dife.bytes.take r.ndife = d
    generalize he : q.dife.bytes.take q.ndife = e
    by_cases h1 : d = [] <;> by_cases h2 : e = []
    · simp only [hr, hq, h1, h2, if_false, if_true, List.cons_append, List.nil_append, List.cons.injEq, Prod.mk.injEq, true_and, hs, escape_eq_iff]
      constructor
      · rintro ⟨⟨i1, i2⟩, i3, i4, i5, i6, i7⟩
        refine ⟨i1, i2, i3, iff_of_false hr hq, fun _ => ?_, fun _ => ?_, fun _ => ?_, fun _ => ?_, fun _ => i5, i6, i7⟩
        · rw [hd, he, h1, h2]; exact dec_inj i4
        · rw [hd, he, h1, h2]
        · rw [hd, he, h1, h2]
        · rw [hd, he, h1, h2]
      · rintro ⟨i1, i2, i3, _, i4, _, _, _, i5, i6, i7⟩
        have := i4 hr
        rw [hd, he, h1, h2] at this
        exact ⟨⟨i1, i2⟩, i3, congrArg dec this, i5 hr, i6, i7⟩
    · constructor
      · rintro ⟨_, h⟩
        simp [hr, hq, h1, h2] at h
      · rintro ⟨_, _, h⟩
        have := h.extended hr
        rw [hd, he] at this
        exact absurd (this.mp h1) h2
    · constructor
      · rintro ⟨_, h⟩
        simp [hr, hq, h1, h2] at h
      · rintro ⟨_, _, h⟩
        have := h.extended hr
        rw [hd, he] at this
        exact absurd (this.mpr h2) h1
    · simp only [hr, hq, h1, h2, if_false, List.cons_append, List.nil_append, List.cons.injEq, Prod.mk.injEq, true_and, hs, escape_eq_iff]
      constructor
      · rintro ⟨⟨i1, i2⟩, i3, i4, i5, i6, i7, i8, i9⟩
        refine ⟨i1, i2, i3, iff_of_false hr hq, fun _ => ?_, fun _ => ?_, fun _ => ?_, fun _ => ?_, fun _ => i7, i8, i9⟩
        · rw [hd, he]; exact dec_inj i4
        · rw [hd, he]; exact iff_of_false h1 h2
        · rw [hd, he]; exact dec_inj i5
        · rw [hd, he]; exact dec_inj i6
      · rintro ⟨i1, i2, i3, _, i4, _, i5, i6, i7, i8, i9⟩
        have j4 := i4 hr
        have j5 := i5 hr
        have j6 := i6 hr
        rw [hd, he] at j4 j5 j6
        exact ⟨⟨i1, i2⟩, i3, congrArg dec j4, congrArg dec j5, congrArg dec j6, i7 hr, i8, i9⟩

/-- The groups of the records of a readout, by their tags. -/
theorem readoutGroups_tagged (tss : List (List Item)) :
    readoutGroups tss = (tagged tss).zipIdx.map fun p => recordGroup p.2 p.1.1 p.1.2.1 p.1.2.2.1 p.1.2.2.2 := by
  rw [readoutGroups_numbered]
  unfold tagged
  rw [List.zipIdx_map, List.map_map]
  apply List.map_congr_left
  intro q _
  by_cases h : tss.length = 1
  · simp [numberedGroup, h]
  · simp [numberedGroup, h]

theorem groups_eq_iff (as bs : List (Option Nat × Item)) (k : Nat) :
    ((as.zipIdx k).map fun p => recordGroup p.2 p.1.1 p.1.2.1 p.1.2.2.1 p.1.2.2.2) =
      ((bs.zipIdx k).map fun p => recordGroup p.2 p.1.1 p.1.2.1 p.1.2.2.1 p.1.2.2.2) ↔
    Pointwise (fun a b => a.1 = b.1 ∧ SameShown a.2 b.2) as bs := by
  induction as generalizing bs k with
  | nil =>
    cases bs with
    | nil => exact iff_of_true rfl .nil
    | cons b bs => exact iff_of_false (by simp) (by intro h; cases h)
  | cons a as ih =>
    cases bs with
    | nil => exact iff_of_false (by simp) (by intro h; cases h)
    | cons b bs =>
      simp only [List.zipIdx_cons, List.map_cons, List.cons.injEq]
      rw [ih bs (k + 1), recordGroup_eq_iff k k a.1 b.1 a.2 b.2]
      constructor
      · rintro ⟨⟨_, h1, h2⟩, h3⟩
        exact .cons ⟨h1, h2⟩ h3
      · intro h
        cases h with
        | cons h1 h3 => exact ⟨⟨rfl, h1.1, h1.2⟩, h3⟩

/-- C131, for documents: two documents of readouts (with time stamps that are character data) are the same text iff the readouts show the
same: same header, and record by record, telegram by telegram, the same records. -/
theorem C131_document (h k : VarHeader) (p p' m m' : List Byte) (tss uss : List (List Item))
    (hs : ∀ i ∈ tss, ∀ it ∈ i, ∀ s, it.2.2 = some s → CharData s) (ht : ∀ i ∈ uss, ∀ it ∈ i, ∀ s, it.2.2 = some s → CharData s) :
    document (slaveGroup h p m :: readoutGroups tss) = document (slaveGroup k p' m' :: readoutGroups uss) ↔
    SameHeader h k p p' m m' ∧ Pointwise (fun a b => a.1 = b.1 ∧ SameShown a.2 b.2) (tagged tss) (tagged uss) := by
  have ok : ∀ (h : VarHeader) (p m : List Byte) (tss : List (List Item)), (∀ i ∈ tss, ∀ it ∈ i, ∀ s, it.2.2 = some s → CharData s) →
      ∀ g ∈ slaveGroup h p m :: readoutGroups tss, GroupOk g := by
    intro h p m tss hs g hg
    rcases List.mem_cons.mp hg with rfl | hg
    · exact slaveGroup_ok _ _ _
    · exact readoutGroups_ok _ hs g hg
  rw [← slaveGroup_eq_iff, ← groups_eq_iff _ _ 0, ← readoutGroups_tagged, ← readoutGroups_tagged, ← List.cons.injEq]
  exact ⟨fun e => document_inject _ _ (ok h p m tss hs) (ok k p' m' uss ht) e, fun e => by rw [e]⟩

/-- A returned buffer holds the text of a document without a NUL: the string is the document. -/
theorem text_of_document {gs : List Group} (hg : ∀ g ∈ gs, GroupOk g) {m : List Byte} (h : document gs ++ [0] <+: m) :
    upToNul m = document gs := by
  obtain ⟨z, rfl⟩ := h
  have h0 := document_nonul gs hg
  generalize document gs = t at *
  unfold upToNul
  rw [List.append_assoc]
  induction t with
  | nil => rfl
  | cons c t ih =>
    have hc : c ≠ 0 := fun e => h0 (by rw [e]; exact List.mem_cons_self ..)
    rw [List.cons_append, List.takeWhile_cons_of_pos (by simpa using hc), ih (fun h => h0 (List.mem_cons_of_mem _ h))]

/-- C131, for `mbus_frame_xml`: two readouts (whose records fit into the buffer, as in C56) give the same string iff they show the same. -/
theorem C131_readouts (junk0 junk0' : Nat → Byte) (junk junk' : Nat → Nat → Byte)
    (t : Telegram) (ts : List Telegram) (h : VarHeader) (its : List Item) (tss : List (List Item))
    (hread : Reads t.1 h (its.map (·.1))) (hst : ∀ it ∈ its, it.2.2 = t.2) (hi : Pointwise ItemsOf ts tss)
    (hs : ∀ i ∈ its :: tss, ∀ it ∈ i, Showable it ∧ StampOk it.2.2) (hx : ∀ i ∈ its :: tss, ∀ it ∈ i, ∀ s, it.2.2 = some s → CharData s)
    (hc : total (its :: tss) < 2 ^ 31) (hk : (its :: tss).length < 2 ^ 31)
    (t' : Telegram) (ts' : List Telegram) (h' : VarHeader) (its' : List Item) (tss' : List (List Item))
    (hread' : Reads t'.1 h' (its'.map (·.1))) (hst' : ∀ it ∈ its', it.2.2 = t'.2) (hi' : Pointwise ItemsOf ts' tss')
    (hs' : ∀ i ∈ its' :: tss', ∀ it ∈ i, Showable it ∧ StampOk it.2.2) (hx' : ∀ i ∈ its' :: tss', ∀ it ∈ i, ∀ s, it.2.2 = some s → CharData s)
    (hc' : total (its' :: tss') < 2 ^ 31) (hk' : (its' :: tss').length < 2 ^ 31) :
    ∃ m m' p p', frameXml junk0 junk t ts = .ok ⟨some m, false, []⟩ ∧ frameXml junk0' junk' t' ts' = .ok ⟨some m', false, []⟩ ∧
      productName h = .ok p ∧ productName h' = .ok p' ∧
      (upToNul m = upToNul m' ↔
        SameHeader h h' p p' (mediumLookup h.medium) (mediumLookup h'.medium) ∧
        Pointwise (fun a b => a.1 = b.1 ∧ SameShown a.2 b.2) (tagged (its :: tss)) (tagged (its' :: tss'))) := by
  obtain ⟨m, p, h1, h2, h3⟩ := C56_frame_partial junk0 junk t ts h its tss hread hst hi hs hc hk
  obtain ⟨m', p', k1, k2, k3⟩ := C56_frame_partial junk0' junk' t' ts' h' its' tss' hread' hst' hi' hs' hc' hk'
  refine ⟨m, m', p, p', h1, k1, h2, k2, ?_⟩
  have ok : ∀ (h : VarHeader) (p m : List Byte) (tss : List (List Item)), (∀ i ∈ tss, ∀ it ∈ i, ∀ s, it.2.2 = some s → CharData s) →
      ∀ g ∈ slaveGroup h p m :: readoutGroups tss, GroupOk g := by
    intro h p m tss hs g hg
    rcases List.mem_cons.mp hg with rfl | hg
    · exact slaveGroup_ok _ _ _
    · exact readoutGroups_ok _ hs g hg
  rw [text_of_document (ok _ _ _ _ hx) h3, text_of_document (ok _ _ _ _ hx') k3]
  exact C131_document _ _ _ _ _ _ _ _ hx hx'

/-! ### values -/

theorem blank_id (l : List Byte) (h : ∀ c ∈ l, 32 ≤ c.toNat ∧ c.toNat ≤ 126) : l.map blank = l := by
  have : ∀ c ∈ l, blank c = c := by
    intro c hc
    have := h c hc
    unfold blank
    rw [if_neg (by omega)]
  rw [List.map_congr_left this, List.map_id']

theorem fmtInt_printable (z : Int) : ∀ c ∈ fmtInt z, 32 ≤ c.toNat ∧ c.toNat ≤ 126 := by
  intro c hc
  unfold fmtInt at hc
  split at hc
  · rcases List.mem_cons.mp hc with rfl | hc
    · decide
    · have := decDigits_digit _ c hc
      omega
  · have := decDigits_digit _ c hc
    omega

/-- C131: from the document, whole numbers can be read off exactly: two integer values shown the same are the same. -/
theorem C131_integers (a b : Item) (v w : Int) (h : SameShown a b) (ha : meaning a.1 = .int v) (hb : meaning b.1 = .int w) : v = w := by
  have key : ∀ (r : Record) (v : Int), meaning r = .int v → (upToNul (shown r)).map blank = fmtInt v := by
    intro r v hv
    have e : shown r = fmtInt v := by unfold shown; rw [hv]
    rw [e, upToNul_eq _ (fun h0 => absurd (fmtInt_printable v 0 h0).1 (by decide)), blank_id _ (fmtInt_printable v)]
  have := h.value
  unfold SameText at this
  rw [key _ _ ha, key _ _ hb] at this
  exact fmtInt_inj this

/-- A telegram with one volume record of 6 litres. -/
def sixTelegram : Frame := rsp 0x72 (hdr ++ [0x01, 0x13, 6])
def sixItem : Item := (mkRec (.value 0x01 [] 0x13 [] [] [6]), cs! "Volume (m m^3)", some (cs! "2020-01-01T00:00:00Z"))

theorem six_reads : Reads sixTelegram hdrHeader [sixItem.1] :=
  reads_rsp [0x01, 0x13, 6] (by decide) [.value 0x01 [] 0x13 [] [] [6]] (.cons (dif := 0x01) (difes := []) (vif := 0x13) (text := []) (vifes := []) (data := [6]) (bs := []) (rs := [])
    ⟨by decide, by decide, by decide, by decide, by decide, by decide, by decide, by decide, by decide,
      by unfold DataFits; rw [if_neg (by decide)]; rfl⟩ .nil)

theorem six_showable : Showable sixItem ∧ StampOk sixItem.2.2 := by
  refine ⟨⟨by decide +kernel, fun _ => ⟨by decide, by decide +kernel⟩, C56_plain_partial _ _ (six_reads.delivered _ (by simp)) (by decide +kernel) (.inr ?_)⟩, ?_⟩
  · refine ⟨by decide +kernel, ?_⟩
    have : shown sixItem.1 = fmtInt 6 := rfl
    rw [this, show fmtInt 6 = [54] by simp [fmtInt, decDigits]]
    decide
  · exact volume_showable.2

/-- Five litres and six litres, at the same time from the same meter: two different documents. -/
example : ∃ m m', frameXml (fun _ => 7) (fun _ _ => 7) (volumeTelegram, volumeItem.2.2) [] = .ok ⟨some m, false, []⟩ ∧
    frameXml (fun _ => 9) (fun _ _ => 9) (sixTelegram, sixItem.2.2) [] = .ok ⟨some m', false, []⟩ ∧ upToNul m ≠ upToNul m' := by
  have hstamp : ∀ s, volumeItem.2.2 = some s → CharData s := by
    intro s hs
    injection hs with hs
    subst hs
    exact charData_of_forall _ (by decide)
  obtain ⟨m, m', p, p', h1, h2, _, _, h3⟩ := C131_readouts (fun _ => 7) (fun _ => 9) (fun _ _ => 7) (fun _ _ => 9)
    (volumeTelegram, volumeItem.2.2) [] hdrHeader [volumeItem] [] volume_reads (by simp) .nil
    (by
      intro i hi it hit
      have : i = [volumeItem] := by simpa using hi
      subst this
      rw [List.mem_singleton.mp hit]
      exact volume_showable)
    (by
      intro i hi it hit
      have : i = [volumeItem] := by simpa using hi
      subst this
      rw [List.mem_singleton.mp hit]
      exact hstamp) (by decide) (by decide)
    (sixTelegram, sixItem.2.2) [] hdrHeader [sixItem] [] six_reads (by simp) .nil
    (by
      intro i hi it hit
      have : i = [sixItem] := by simpa using hi
      subst this
      rw [List.mem_singleton.mp hit]
      exact six_showable)
    (by
      intro i hi it hit
      have : i = [sixItem] := by simpa using hi
      subst this
      rw [List.mem_singleton.mp hit]
      exact hstamp) (by decide) (by decide)
  refine ⟨m, m', h1, h2, fun h => ?_⟩
  cases (h3.mp h).2 with
  | cons h4 _ => exact absurd (C131_integers _ _ 5 6 h4.2 rfl rfl) (by decide)

/-- Neither the coding nor the data type is in the document: five as an 8-bit and as a 16-bit number, as two packed digits and as the text "5". -/
example : ∀ d ∈ [mkRec (.value 0x01 [] 0x13 [] [] [5]), mkRec (.value 0x02 [] 0x13 [] [] [5, 0]), mkRec (.value 0x09 [] 0x13 [] [] [5]),
    mkRec (.value 0x0D [] 0x13 [] [] [1, 53])], SameShown (mkRec (.value 0x04 [] 0x13 [] [] [5, 0, 0, 0]), cs! "Volume (m m^3)", none) (d, cs! "Volume (m m^3)", none) := by
  have e : fmtInt 5 = [53] := by simp [fmtInt, decDigits]
  intro d hd
  simp only [List.mem_cons, List.not_mem_nil, or_false] at hd
  rcases hd with rfl | rfl | rfl | rfl
  · exact ⟨rfl, by decide, fun _ => rfl, fun _ => by decide, fun _ => rfl, fun _ => rfl, fun _ => rfl, rfl, rfl⟩
  · exact ⟨rfl, by decide, fun _ => rfl, fun _ => by decide, fun _ => rfl, fun _ => rfl, fun _ => rfl, rfl, rfl⟩
  · exact ⟨rfl, by decide, fun _ => rfl, fun _ => by decide, fun _ => rfl, fun _ => rfl, fun _ => rfl, rfl, rfl⟩
  · refine ⟨rfl, by decide, fun _ => rfl, fun _ => by decide, fun _ => rfl, fun _ => rfl, fun _ => rfl, ?_, rfl⟩
    show (upToNul (fmtInt 5)).map blank = _
    rw [e]
    rfl

/-- ... and of two manufacturer numbers that differ in the top bit only the documents show the same letters. -/
example : SameHeader hdrHeader { hdrHeader with manufacturer := Buf.of2 0x24 0xC0 } [] [] (cs! "Water") (cs! "Water") :=
  ⟨rfl, rfl, rfl, rfl, rfl, rfl, rfl, rfl⟩

example : SameFixed ⟨Buf.of4 1 2 3 4, 5, 0, 5, 0x3E, Buf.of4 1 0 0 0, Buf.of4 2 0 0 0⟩ ⟨Buf.of4 1 2 3 4, 5, 0, 5, 0x3E, Buf.of4 1 0 0 0, Buf.of4 2 0 0 0⟩
    [] [] [] [] [] [] := ⟨rfl, rfl, rfl, rfl, rfl, rfl, rfl, rfl⟩
example : ¬ SameText (errorLookup 3) (errorLookup 4) := by decide +kernel

/-! ### fixed data, application errors, normalised records -/

theorem leInt_inj {a b : List Byte} (hl : a.length = b.length) (h : leInt a = leInt b) : a = b := by
  apply leNat_inj a b hl
  have ha := leNat_lt a
  have hb := leNat_lt b
  have e : (256 : Int) ^ b.length = ((256 ^ b.length : Nat) : Int) := by simp
  unfold leInt at h
  rw [hl, e] at h
  rw [hl] at ha
  generalize 256 ^ b.length = n at *
  split at h <;> split at h <;> omega

/-- C131, for fixed data: two documents are the same text iff the data show the same. -/
theorem C131_fixed (junk junk' : Nat → Byte) (x y : FixedData) : ∃ m m', fixedXml junk x = .ok m ∧ fixedXml junk' y = .ok m' ∧
    (upToNul m = upToNul m' ↔ SameFixed x y (fixedMedium x) (fixedMedium y) (fixedUnit x.cnt1Type.toNat) (fixedUnit y.cnt1Type.toNat)
      (fixedUnit x.cnt2Type.toNat) (fixedUnit y.cnt2Type.toNat)) := by
  obtain ⟨m, h1, h2⟩ := fixedXml_runs junk x
  obtain ⟨m', k1, k2⟩ := fixedXml_runs junk' y
  refine ⟨m, m', h1, k1, ?_⟩
  rw [text_of_document (fixedGroups_ok _ _ _ _ _) h2, text_of_document (fixedGroups_ok _ _ _ _ _) k2]
  have hcount : ∀ (s : Byte) (a b : Buf 4), counterText s a.bytes = counterText s b.bytes → a.bytes = b.bytes := by
    intro s a b h
    have hl : a.bytes.length = b.bytes.length := by rw [a.size_eq, b.size_eq]
    unfold counterText at h
    split at h
    · exact leNat_inj _ _ hl (hex_inj h)
    · exact leInt_inj hl (fmtInt_inj h)
  constructor
  · intro h
    have := document_inject _ _ (fixedGroups_ok _ _ _ _ _) (fixedGroups_ok _ _ _ _ _) h
    unfold fixedGroups at this
    simp only [List.cons.injEq, Group.mk.injEq, Prod.mk.injEq, true_and, and_true] at this
    obtain ⟨⟨i1, i2, i3, i4⟩, ⟨_, i6, i7⟩, ⟨_, i8, i9⟩⟩ := this
    have e4 := fmtHex2_inj _ _ i4
    rw [e4] at i7 i9
    exact ⟨leNat_inj _ _ (by rw [x.idBcd.size_eq, y.idBcd.size_eq]) (hex_inj i1), UInt8.toNat_inj.mp (dec_inj i3), e4,
      hcount _ _ _ i7, hcount _ _ _ i9, (escape_eq_iff _ _).mp i2, (escape_eq_iff _ _).mp i6, (escape_eq_iff _ _).mp i8⟩
  · rintro ⟨i1, i2, i3, i4, i5, i6, i7, i8⟩
    unfold fixedGroups
    rw [i1, i2, i3, i4, i5, (escape_eq_iff _ _).mpr i6, (escape_eq_iff _ _).mpr i7, (escape_eq_iff _ _).mpr i8]

/-- C131, for application errors: two documents are the same text iff the labels of the errors are. -/
theorem C131_error (junk junk' : Nat → Byte) (d e : Int) : ∃ m m', errorXml junk d = .ok m ∧ errorXml junk' e = .ok m' ∧
    (upToNul m = upToNul m' ↔ SameText (errorLookup d) (errorLookup e)) := by
  obtain ⟨m, h1, h2⟩ := errorXml_runs junk d
  obtain ⟨m', k1, k2⟩ := errorXml_runs junk' e
  refine ⟨m, m', h1, k1, ?_⟩
  have ok : ∀ l, ∀ g ∈ [errorGroup l], GroupOk g := fun l g hg => by rw [List.mem_singleton.mp hg]; exact errorGroup_ok _
  rw [text_of_document (ok _) h2, text_of_document (ok _) k2, ← escape_eq_iff]
  constructor
  · intro h
    have := document_inject _ _ (ok _) (ok _) h
    simpa [errorGroup] using this
  · intro h
    unfold errorGroup
    rw [h]

theorem normGroup_ok (id : Nat) (n : Option NRecord) : GroupOk (normGroup id n) := by
  refine ⟨by simp only [normGroup]; decide, ?_, ?_⟩
  · intro a ha
    simp only [normGroup, List.mem_singleton] at ha
    subst ha
    exact ⟨by dsimp only; decide, charData_dec id, fun h => (decDigits_harmless id _ h).2 rfl⟩
  · intro l hl
    cases n with
    | none => simp [normGroup] at hl
    | some n =>
      have hv : CharData (normText n) := by
        unfold normText
        split
        · exact charData_fmtF _
        · exact charData_escape _
      simp only [normGroup, List.mem_append, List.mem_cons, List.not_mem_nil, or_false] at hl
      rcases hl with ((rfl | rfl) | hl) | (rfl | rfl | rfl)
      · exact ⟨by dsimp only; decide, charData_escape _⟩
      · exact ⟨by dsimp only; decide, charData_fmtInt _⟩
      · split at hl
        · simp only [List.mem_cons, List.not_mem_nil, or_false] at hl
          rcases hl with rfl | rfl
          · exact ⟨by dsimp only; decide, charData_fmtInt _⟩
          · exact ⟨by dsimp only; decide, charData_fmtInt _⟩
        · simp at hl
      · exact ⟨by dsimp only; decide, charData_escape _⟩
      · exact ⟨by dsimp only; decide, charData_escape _⟩
      · exact ⟨by dsimp only; decide, hv⟩

theorem normGroup_eq_iff (i j : Nat) (a b : Option NRecord) : normGroup i a = normGroup j b ↔ i = j ∧ BothNorm a b := by
  unfold normGroup
  simp only [Group.mk.injEq, true_and, List.cons.injEq, Prod.mk.injEq, and_true]
  have hd : dec i = dec j ↔ i = j := ⟨dec_inj, fun h => by rw [h]⟩
  rw [hd]
  refine and_congr Iff.rfl ?_
  cases a with
  | none =>
    cases b with
    | none => exact iff_of_true rfl trivial
    | some b => exact iff_of_false (by simp) (fun h => h)
  | some a =>
    cases b with
    | none => exact iff_of_false (by simp) (fun h => h)
    | some b =>
      show _ ↔ SameNorm a b
      by_cases ha : a.tariff ≥ 0 <;> by_cases hb : b.tariff ≥ 0
      · simp only [ha, hb, if_true, List.cons_append, List.nil_append, List.cons.injEq, Prod.mk.injEq, true_and, and_true, escape_eq_iff]
        constructor
        · rintro ⟨h1, h2, h3, h4, h5, h6, h7⟩
          exact ⟨h1, fmtInt_inj h2, iff_of_true ha hb, fun _ => ⟨fmtInt_inj h3, fmtInt_inj h4⟩, h5, h6, h7⟩
        · rintro ⟨h1, h2, _, h4, h5, h6, h7⟩
          exact ⟨h1, by rw [h2], by rw [(h4 ha).1], by rw [(h4 ha).2], h5, h6, h7⟩
      · exact iff_of_false (by intro h; simp [ha, hb] at h) (fun h => hb (h.extended.mp ha))
      · exact iff_of_false (by intro h; simp [ha, hb] at h) (fun h => ha (h.extended.mpr hb))
      · simp only [ha, hb, if_false, List.cons_append, List.nil_append, List.append_nil, List.cons.injEq, Prod.mk.injEq, true_and, and_true, escape_eq_iff]
        constructor
        · rintro ⟨h1, h2, h5, h6, h7⟩
          exact ⟨h1, fmtInt_inj h2, iff_of_false ha hb, fun h => absurd h ha, h5, h6, h7⟩
        · rintro ⟨h1, h2, _, _, h5, h6, h7⟩
          exact ⟨h1, by rw [h2], h5, h6, h7⟩

theorem normGroups_eq_iff (as bs : List (Option NRecord)) (k : Nat) :
    ((as.zipIdx k).map fun p => normGroup p.2 p.1) = ((bs.zipIdx k).map fun p => normGroup p.2 p.1) ↔ Pointwise BothNorm as bs := by
  induction as generalizing bs k with
  | nil =>
    cases bs with
    | nil => exact iff_of_true rfl .nil
    | cons b bs => exact iff_of_false (by simp) (by intro h; cases h)
  | cons a as ih =>
    cases bs with
    | nil => exact iff_of_false (by simp) (by intro h; cases h)
    | cons b bs =>
      simp only [List.zipIdx_cons, List.map_cons, List.cons.injEq]
      rw [ih bs (k + 1), normGroup_eq_iff]
      constructor
      · rintro ⟨⟨_, h1⟩, h3⟩
        exact .cons h1 h3
      · intro h
        cases h with
        | cons h1 h3 => exact ⟨⟨rfl, h1⟩, h3⟩

/-- C131, for `mbus_frame_data_xml_normalized` (records that fit, as in C79): two documents are the same text iff the headers show the same
and the normalised records do, one by one. -/
theorem C131_normalised (junk0 junk0' : Nat → Byte) (junk junk' : Nat → Nat → Byte) (x y : FrameData)
    (hx : x.type = DATA_VARIABLE) (hc : x.var.records.length < 2 ^ 31) (hd : ∀ r ∈ x.var.records, Delivered r ∧ StorageOk r)
    (ht : ∀ r ∈ x.var.records, ∀ j n leak, parseVariableRecord j r = .ok (some n, leak) → Terse n)
    (hx' : y.type = DATA_VARIABLE) (hc' : y.var.records.length < 2 ^ 31) (hd' : ∀ r ∈ y.var.records, Delivered r ∧ StorageOk r)
    (ht' : ∀ r ∈ y.var.records, ∀ j n leak, parseVariableRecord j r = .ok (some n, leak) → Terse n) :
    ∃ m m' p p' ns ns', frameDataXmlNormalized junk0 junk x = .ok (some m) ∧ frameDataXmlNormalized junk0' junk' y = .ok (some m') ∧
      productName x.var.header = .ok p ∧ productName y.var.header = .ok p' ∧
      Pointwise (fun r n => ∃ j leak, parseVariableRecord j r = .ok (n, leak)) x.var.records ns ∧
      Pointwise (fun r n => ∃ j leak, parseVariableRecord j r = .ok (n, leak)) y.var.records ns' ∧
      (upToNul m = upToNul m' ↔
        SameHeader x.var.header y.var.header p p' (mediumLookup x.var.header.medium) (mediumLookup y.var.header.medium) ∧
        Pointwise BothNorm ns ns') := by
  obtain ⟨m, p, ns, h1, h2, h3, h4⟩ := C79_partial junk0 junk x hx hc hd ht
  obtain ⟨m', p', ns', k1, k2, k3, k4⟩ := C79_partial junk0' junk' y hx' hc' hd' ht'
  refine ⟨m, m', p, p', ns, ns', h1, k1, h2, k2, h3, k3, ?_⟩
  have ok : ∀ (h : VarHeader) (p m : List Byte) (ns : List (Option NRecord)),
      ∀ g ∈ slaveGroup h p m :: ns.zipIdx.map fun p => normGroup p.2 p.1, GroupOk g := by
    intro h p m ns g hg
    rcases List.mem_cons.mp hg with rfl | hg
    · exact slaveGroup_ok _ _ _
    · obtain ⟨q, _, rfl⟩ := List.mem_map.mp hg
      exact normGroup_ok _ _
  rw [text_of_document (ok _ _ _ _) h4, text_of_document (ok _ _ _ _) k4, ← slaveGroup_eq_iff, ← normGroups_eq_iff _ _ 0, ← List.cons.injEq]
  exact ⟨fun e => document_inject _ _ (ok _ _ _ _) (ok _ _ _ _) e, fun e => by rw [e]⟩

end Mbus
