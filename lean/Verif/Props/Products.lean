import Verif.Spec.Products
import Verif.Lemmas.Units
/- Property theorems C108: product names. -/
namespace Mbus
open Spec

/-- The text as a function of the numbers it depends on. -/
def nameOf (man version medium id3 : Nat) : List Byte :=
  match productRules.find? (fun e => e.1.any (fun s => man == manufacturerId s)) with
  | none => []
  | some e =>
    match e.2.find? (fun p => p.applies version medium id3) with
    | none => []
    | some p => p.label

/-- the medium, or 0 for media no rule mentions -/
def mediumClass (m : Nat) : Nat := if m = 2 ∨ m = 6 ∨ m = 15 then m else 0

theorem rules_shape : ∀ e ∈ productRules, ∀ p ∈ e.2, p.onId3 = (e.2.head?.map (·.onId3)).getD false ∧
    p.hi < 256 ∧ (p.medium = none ∨ p.medium = some 2 ∨ p.medium = some 6 ∨ p.medium = some 15) := by decide +kernel

theorem class_eq (m x : Nat) (h : m = 2 ∨ m = 6 ∨ m = 15) : (m == mediumClass x) = (m == x) := by
  unfold mediumClass
  by_cases hx : x = 2 ∨ x = 6 ∨ x = 15
  · rw [if_pos hx]
  · rw [if_neg hx]
    have h1 : m ≠ 0 := by omega
    have h2 : m ≠ x := by omega
    rw [beq_eq_false_iff_ne.mpr h1, beq_eq_false_iff_ne.mpr h2]

/-- The branch decides on the version or on the identification number. -/
theorem nameOf_key (man version medium id3 : Nat) (e : List (List Byte) × List ProdRule)
    (he : productRules.find? (fun e => e.1.any (fun s => man == manufacturerId s)) = some e) :
    nameOf man version medium id3 =
      let k := if (e.2.head?.map (·.onId3)).getD false then id3 else version
      nameOf man k (mediumClass medium) k := by
  unfold nameOf
  rw [he]
  dsimp only
  have hm := List.mem_of_find?_eq_some he
  have : e.2.find? (fun p => p.applies version medium id3) = e.2.find? (fun p =>
      p.applies (if (e.2.head?.map (·.onId3)).getD false then id3 else version) (mediumClass medium)
        (if (e.2.head?.map (·.onId3)).getD false then id3 else version)) := by
    have key := rules_shape e hm
    generalize (e.2.head?.map (·.onId3)).getD false = b at key
    generalize e.2 = l at key
    induction l with
    | nil => rfl
    | cons p l ih =>
      rw [List.find?_cons, List.find?_cons, ih (fun q hq => key q (List.mem_cons_of_mem _ hq))]
      obtain ⟨h1, _, h2⟩ := key p (List.mem_cons_self ..)
      have : p.applies version medium id3 = p.applies (if b then id3 else version) (mediumClass medium) (if b then id3 else version) := by
        unfold ProdRule.applies
        rw [h1]
        have hk : (if b = true then (if b = true then id3 else version) else (if b = true then id3 else version)) =
          (if b = true then id3 else version) := by cases b <;> rfl
        dsimp only
        rw [hk]
        congr 1
        rcases h2 with h | h | h | h <;> rw [h] <;> dsimp only <;> rw [class_eq _ _ (by omega)]
      rw [this]
  rw [this]

/-- all numbers from `a` to `b` -/
def interval (c : Nat × Nat) : List Nat := (List.range (c.2 + 1 - c.1)).map (c.1 + ·)

theorem mem_interval {c : Nat × Nat} {k : Nat} (h1 : c.1 ≤ k) (h2 : k ≤ c.2) : k ∈ interval c := by
  unfold interval
  rw [List.mem_map]
  exact ⟨k - c.1, by rw [List.mem_range]; omega, by omega⟩

def mediaClasses : List Nat := [0, 2, 6, 15]

theorem mediumClass_mem (m : Nat) : mediumClass m ∈ mediaClasses := by
  unfold mediumClass mediaClasses
  split
  · next h => rcases h with rfl | rfl | rfl <;> decide
  · decide

instance (m : Media) (x : Nat) : Decidable (m.has x) := by unfold Media.has; cases m <;> infer_instance

/-- the medium an entry mentions (2 if none) -/
def Spec.Media.mentioned : Media → Nat
  | .any => 2
  | .only m => m
  | .allBut m => m

theorem media_small : ∀ p ∈ catalogue, p.media.mentioned = 2 ∨ p.media.mentioned = 6 ∨ p.media.mentioned = 15 := by
  decide +kernel

theorem has_class {p : Product} (hp : p ∈ catalogue) (m : Nat) : p.media.has (mediumClass m) ↔ p.media.has m := by
  have h := media_small p hp
  have key : ∀ n, (n = 2 ∨ n = 6 ∨ n = 15) → (mediumClass m = n ↔ m = n) := by
    intro n hn
    unfold mediumClass
    split <;> omega
  cases hm : p.media with
  | any => simp [Media.has]
  | only n => rw [hm] at h; exact key n h
  | allBut n => rw [hm] at h; exact not_congr (key n h)

/-- Every entry is what the rules give for its codes. -/
theorem entries_named : ∀ p ∈ catalogue, ∀ m ∈ p.makers,
    (productRules.find? (fun e => e.1.any (fun s => flagNumber m == manufacturerId s))).map (fun e => (e.2.head?.map (·.onId3)).getD false) = some p.byId ∧
    ∀ c ∈ p.codes, ∀ k ∈ interval c, ∀ x ∈ mediaClasses, p.media.has x → nameOf (flagNumber m) k x k = p.name := by decide +kernel

set_option synthInstance.maxSize 2000 in
set_option synthInstance.maxHeartbeats 400000 in
/-- Every label of the rules belongs to an entry that covers the codes of the rule. -/
theorem rules_listed : ∀ e ∈ productRules, ∀ s ∈ e.1, ∀ p ∈ e.2, ∀ k ∈ interval (p.lo, p.hi), ∀ x ∈ mediaClasses,
    nameOf (manufacturerId s) k x k = p.label → ∃ q ∈ catalogue, q.name = p.label ∧ q.byId = (e.2.head?.map (·.onId3)).getD false ∧
      (∃ m ∈ q.makers, manufacturerId s = flagNumber m) ∧ q.media.has x ∧ ∃ c ∈ q.codes, c.1 ≤ k ∧ k ≤ c.2 := by decide +kernel

theorem productName_eq (h : VarHeader) :
    productName h = .ok (nameOf (leNat h.manufacturer.bytes) h.version.toNat h.medium.toNat (h.idBcd.bytes.getLastD 0).toNat) := by
  have hm : ∃ m0 m1, h.manufacturer.bytes = [m0, m1] := by
    have := h.manufacturer.length_bytes
    match hb : h.manufacturer.bytes with
    | [a, b] => exact ⟨a, b, rfl⟩
    | [] => rw [hb] at this; cases this
    | [a] => rw [hb] at this; cases this
    | _ :: _ :: _ :: _ => rw [hb] at this; simp at this
  have hi : ∃ a b c d, h.idBcd.bytes = [a, b, c, d] := by
    have := h.idBcd.length_bytes
    match hb : h.idBcd.bytes with
    | [a, b, c, d] => exact ⟨a, b, c, d, rfl⟩
    | [] => rw [hb] at this; cases this
    | [a] => rw [hb] at this; cases this
    | [a, b] => rw [hb] at this; cases this
    | [a, b, c] => rw [hb] at this; cases this
    | _ :: _ :: _ :: _ :: _ :: _ => rw [hb] at this; simp at this
  obtain ⟨m0, m1, hm⟩ := hm
  obtain ⟨a, b, c, d, hi⟩ := hi
  unfold productName Buf.rd
  rw [rd_ok (by simp), ok_bind, rd_ok (by simp), ok_bind, rd_ok (by simp), ok_bind]
  unfold strcpyS
  rw [if_pos (productNameText_lt _ _ _ _)]
  simp only [hm, hi]
  show Except.ok (nameOf (m1.toNat * 256 + m0.toNat) _ _ _) = _
  have : leNat [m0, m1] = m1.toNat * 256 + m0.toNat := by simp [leNat]; omega
  rw [this]
  rfl

/-- C108: a header that fits an entry of the catalogue gets the name of the product. -/
theorem C108_named (h : VarHeader) (p : Product) (hp : p ∈ catalogue) (hf : p.Fits h) : productName h = .ok p.name := by
  obtain ⟨⟨m, hm, hman⟩, hmed, c, hc, c1, c2⟩ := hf
  obtain ⟨hb, hn⟩ := entries_named p hp m hm
  rw [productName_eq, hman]
  obtain ⟨e, he, hb⟩ := Option.map_eq_some_iff.mp hb
  rw [nameOf_key _ _ _ _ e he]
  dsimp only
  rw [hb]
  have hk : (if p.byId then (h.idBcd.bytes.getLastD 0).toNat else h.version.toNat) = (if p.byId then h.idBcd.bytes.getLastD 0 else h.version).toNat := by
    split <;> rfl
  rw [hk, hn c hc _ (mem_interval c1 c2) _ (mediumClass_mem _) ((has_class hp _).mpr hmed)]

/-- C108: no other header gets a name. -/
theorem C108_unnamed (h : VarHeader) (hn : ∀ p ∈ catalogue, ¬ p.Fits h) : productName h = .ok [] := by
  rw [productName_eq]
  cases he : productRules.find? (fun e => e.1.any (fun s => leNat h.manufacturer.bytes == manufacturerId s)) with
  | none => unfold nameOf; rw [he]
  | some e =>
    have key := nameOf_key _ h.version.toNat h.medium.toNat (h.idBcd.bytes.getLastD 0).toNat e he
    obtain ⟨hmem, hany⟩ := List.find?_eq_some_iff_append.mp he |>.1 |> fun h => (⟨List.mem_of_find?_eq_some he, h⟩ : _ ∧ _)
    obtain ⟨s, hs, hse⟩ := List.any_eq_true.mp hany
    have hse := eq_of_beq hse
    rw [key]
    dsimp only
    generalize hb : (e.2.head?.map (·.onId3)).getD false = b
    have hk : (if b then (h.idBcd.bytes.getLastD 0).toNat else h.version.toNat) = (if b then h.idBcd.bytes.getLastD 0 else h.version).toNat := by
      split <;> rfl
    rw [hk]
    cases hf : e.2.find? (fun p => p.applies (if b then h.idBcd.bytes.getLastD 0 else h.version).toNat (mediumClass h.medium.toNat)
        (if b then h.idBcd.bytes.getLastD 0 else h.version).toNat) with
    | none => unfold nameOf; rw [he]; dsimp only; rw [hf]
    | some p =>
      exfalso
      have hname : nameOf (manufacturerId s) (if b then h.idBcd.bytes.getLastD 0 else h.version).toNat (mediumClass h.medium.toNat)
          (if b then h.idBcd.bytes.getLastD 0 else h.version).toNat = p.label := by
        rw [← hse]; unfold nameOf; rw [he]; dsimp only; rw [hf]
      have happ := List.find?_some hf
      have hp := List.mem_of_find?_eq_some hf
      unfold ProdRule.applies at happ
      simp only [Bool.and_eq_true, decide_eq_true_eq, ite_self] at happ
      obtain ⟨q, hq, _, hqb, hqm, hqx, c, hc, c1, c2⟩ := rules_listed e hmem s hs p hp _ (mem_interval happ.1.1 happ.1.2) _ (mediumClass_mem _) hname
      rw [hb] at hqb
      refine hn q hq ⟨?_, (has_class hq _).mp hqx, c, hc, ?_, ?_⟩
      · obtain ⟨m, hm, e⟩ := hqm
        exact ⟨m, hm, hse.trans e⟩
      · rw [hqb]; exact c1
      · rw [hqb]; exact c2

/-- an Itron CF 51 -/
def cf51 : VarHeader := { VarHeader.zero with manufacturer := ⟨[0x77, 0x04], rfl⟩, version := 0x0A, medium := 4 }

example : (⟨cs! "Itron CF 51", [cs! "ACW"], [one 0x0A], .any, false⟩ : Product) ∈ catalogue := by
  have : catalogue[31]? = some _ := rfl
  exact List.mem_of_getElem? this
example : (⟨cs! "Itron CF 51", [cs! "ACW"], [one 0x0A], .any, false⟩ : Product).Fits cf51 :=
  ⟨⟨_, .head _, by decide +kernel⟩, trivial, _, .head _, by decide, by decide⟩
example : productName cf51 = .ok (cs! "Itron CF 51") := by decide +kernel

/-- a device of unknown make -/
example : ∀ p ∈ catalogue, ¬ p.Fits VarHeader.zero := by
  have h : ∀ p ∈ catalogue, ∀ m ∈ p.makers, leNat VarHeader.zero.manufacturer.bytes ≠ flagNumber m := by decide +kernel
  rintro p hp ⟨⟨m, hm, e⟩, _⟩
  exact h p hp m hm e

/-- C108: the catalogue is unambiguous: a header never fits entries with different names. -/
theorem C108_unambiguous (h : VarHeader) (p q : Product) (hp : p ∈ catalogue) (hq : q ∈ catalogue) (h1 : p.Fits h) (h2 : q.Fits h) : p.name = q.name := by
  have := (C108_named h p hp h1).symm.trans (C108_named h q hq h2)
  injection this

/-- C108: no two manufacturers share a number, so the letters in the catalogue tell them apart. -/
theorem C108_makers (a b : List Byte) (ha : a ∈ catalogue.flatMap (·.makers)) (hb : b ∈ catalogue.flatMap (·.makers))
    (h : flagNumber a = flagNumber b) : a = b := by
  have : ∀ a ∈ catalogue.flatMap (·.makers), ∀ b ∈ catalogue.flatMap (·.makers), flagNumber a = flagNumber b → a = b := by decide +kernel
  exact this a ha b hb h

/-! Direct instances of the theorems above. -/

theorem cf51_listed : (⟨cs! "Itron CF 51", [cs! "ACW"], [one 0x0A], .any, false⟩ : Product) ∈ catalogue := by
  have : catalogue[31]? = some _ := rfl
  exact List.mem_of_getElem? this
theorem cf51_fits : (⟨cs! "Itron CF 51", [cs! "ACW"], [one 0x0A], .any, false⟩ : Product).Fits cf51 :=
  ⟨⟨_, .head _, by decide +kernel⟩, trivial, _, .head _, by decide, by decide⟩
example : productName cf51 = .ok (cs! "Itron CF 51") := C108_named cf51 _ cf51_listed cf51_fits
example (q : Product) (hq : q ∈ catalogue) (h : q.Fits cf51) : q.name = cs! "Itron CF 51" := (C108_unambiguous cf51 _ q cf51_listed hq cf51_fits h).symm
example (b : List Byte) (hb : b ∈ catalogue.flatMap (·.makers)) (h : flagNumber (cs! "ACW") = flagNumber b) : cs! "ACW" = b :=
  C108_makers _ _ (List.mem_flatMap.mpr ⟨_, cf51_listed, .head _⟩) hb h

end Mbus
