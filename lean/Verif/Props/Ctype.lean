import Verif.Spec.Ctype
import Verif.Props.Text

/-
Property theorems C136: manufacturer codes and hexadecimal text in every locale.  `AsciiClasses`, `EnglishI`, `TurkishI` are from Spec/Ctype.lean.
-/
namespace Mbus
open Spec

variable {T : Ctype}

theorem strtoul2In_eq {c0 : Byte} (c1 : Byte) (h : T.space c0 = isSpace c0) : strtoul2In T c0 c1 = strtoul2 c0 c1 := by
  unfold strtoul2In strtoul2
  rw [h]

theorem hexLoopIn_eq (n : Nat) (src : List Byte) (r : Nat) (dst : List Byte) (h : ∀ c ∈ src, T.space c = isSpace c) : hexLoopIn T n src r dst = hexLoop n src r dst := by
  fun_induction hexLoop n src r dst with
  | case1 c0 c1 rest r dst hs ih =>
    rw [hexLoopIn, if_pos (by rw [h _ (by simp)]; exact hs)]
    exact ih (fun c hc => h c (List.mem_cons_of_mem _ hc))
  | case2 c0 c1 rest r dst hs hu =>
    rw [hexLoopIn, if_neg (by rw [h _ (by simp)]; exact hs), strtoul2In_eq _ (h _ (by simp)), hu]
  | case3 c0 c1 rest r dst hs v hu hl =>
    rw [hexLoopIn, if_neg (by rw [h _ (by simp)]; exact hs), strtoul2In_eq _ (h _ (by simp)), hu]
    dsimp only
    rw [if_pos hl]
  | case4 c0 c1 rest r dst hs v hu hl ih =>
    rw [hexLoopIn, if_neg (by rw [h _ (by simp)]; exact hs), strtoul2In_eq _ (h _ (by simp)), hu]
    dsimp only
    rw [if_neg hl]
    cases wr dst r (UInt8.ofNat v) with
    | error e => rfl
    | ok d => exact ih d (fun c hc => h c (List.mem_cons_of_mem _ (List.mem_cons_of_mem _ hc)))
  | case5 r dst src hn =>
    unfold hexLoopIn
    split
    · exact absurd rfl (hn _ _ _)
    · rfl

theorem hex2binIn_eq (dst : List Byte) (n : Nat) (src : List Byte) (h : ∀ c ∈ src, T.space c = isSpace c) : hex2binIn T dst n src = hex2bin dst n src := by
  unfold hex2binIn hex2bin
  cases memset0 dst n with
  | error e => rfl
  | ok d => exact hexLoopIn_eq n src 0 d h

/-- In the "C" locale the functions are those of Model/Codec. -/
theorem C136_c_locale : manufacturerIdIn .c = manufacturerId ∧ hex2binIn .c = hex2bin := by
  have hu : ∀ c : Byte, isAlpha c = true → 65 ≤ (toUpper c).toNat := forall_byte (by decide +kernel)
  constructor
  · funext s
    match s with
    | [] => rfl
    | [_] => rfl
    | [_, _] => rfl
    | c0 :: c1 :: c2 :: rest =>
      unfold manufacturerIdIn manufacturerId Ctype.c
      dsimp only
      split
      · rfl
      · rename_i h
        simp only [Bool.or_eq_true, Bool.not_eq_true', not_or, Bool.not_eq_false] at h
        have h0 := hu _ h.1.1
        have h1 := hu _ h.1.2
        have h2 := hu _ h.2
        have k0 := (toUpper c0).toNat_lt
        have k1 := (toUpper c1).toNat_lt
        have k2 := (toUpper c2).toNat_lt
        have e : ((((toUpper c0).toNat : Int) - 64) * 32 * 32 + (((toUpper c1).toNat : Int) - 64) * 32 + (((toUpper c2).toNat : Int) - 64)) % 2 ^ 32 =
            ((((toUpper c0).toNat - 64) * 32 * 32 + ((toUpper c1).toNat - 64) * 32 + ((toUpper c2).toNat - 64) : Nat) : Int) := by omega
        rw [e, Int.toNat_natCast]
  · funext dst n src
    exact hex2binIn_eq dst n src fun _ _ => rfl

/-- C136: ASCII text gives the same bytes in every locale. -/
theorem C136_hex (hT : AsciiClasses T) (dst : List Byte) (n : Nat) (src : List Byte) (ha : ∀ c ∈ src, c.toNat < 128) : hex2binIn T dst n src = hex2bin dst n src :=
  hex2binIn_eq dst n src fun c hc => by
    rw [Bool.eq_iff_iff, hT.space c (ha c hc)]
    simp [isSpace]

/-- Three letters, each with the capital form the locale gives it. -/
theorem manufacturerIdIn_letters (hT : AsciiClasses T) {c0 c1 c2 : Byte} (rest : List Byte) (h0 : Letter c0) (h1 : Letter c1) (h2 : Letter c2) :
    manufacturerIdIn T (c0 :: c1 :: c2 :: rest) =
      let id := (((T.upper c0 - 64) * 32 * 32 + (T.upper c1 - 64) * 32 + (T.upper c2 - 64)) % 2 ^ 32).toNat
      if 0x0421 ≤ id ∧ id ≤ 0x6b5a then id else 0 := by
  have l : ∀ c : Byte, Letter c → c.toNat < 128 := fun c h => by unfold Letter at h; omega
  have a : ∀ c : Byte, Letter c → T.alpha c = true := fun c h => (hT.alpha c (l c h)).mpr h
  unfold manufacturerIdIn
  dsimp only
  rw [a _ h0, a _ h1, a _ h2]
  rfl

/-- C136: codes without a small `i` have the same number in every locale - in particular those in capital letters, the product names of the
documents with them. -/
theorem C136_codes (hT : AsciiClasses T) (c0 c1 c2 : Byte) (rest : List Byte) (h0 : Letter c0) (h1 : Letter c1) (h2 : Letter c2)
    (hi : (c0 ≠ 105 ∧ c1 ≠ 105 ∧ c2 ≠ 105) ∨ EnglishI T) :
    manufacturerIdIn T (c0 :: c1 :: c2 :: rest) = flagId (upper c0) (upper c1) (upper c2) ∧
    manufacturerId (c0 :: c1 :: c2 :: rest) = flagId (upper c0) (upper c1) (upper c2) := by
  have u : ∀ c : Byte, Letter c → (c ≠ 105 ∨ EnglishI T) → T.upper c = (upper c).toNat := fun c h hc => by
    by_cases e : c = 105
    · rw [e]
      exact hc.elim (fun h => absurd e h) id
    · exact hT.upper c h e
  have k0 := upper_capital c0 h0
  have k1 := upper_capital c1 h1
  have k2 := upper_capital c2 h2
  refine ⟨?_, (C17_letters c0 c1 c2 rest h0 h1 h2).1⟩
  rw [manufacturerIdIn_letters hT rest h0 h1 h2, u _ h0 (hi.imp (·.1) id), u _ h1 (hi.imp (·.2.1) id), u _ h2 (hi.imp (·.2.2) id)]
  unfold Capital at k0 k1 k2
  unfold flagId
  dsimp only
  rw [if_pos (by omega)]
  omega

/-- C136: everything that does not begin with three letters is rejected, whatever the locale, if it is ASCII. -/
theorem C136_others (hT : AsciiClasses T) (s : List Byte) (ha : ∀ c ∈ s, c.toNat < 128)
    (h : ¬ ∃ c0 c1 c2 rest, s = c0 :: c1 :: c2 :: rest ∧ Letter c0 ∧ Letter c1 ∧ Letter c2) : manufacturerIdIn T s = 0 := by
  match s, ha, h with
  | [], _, _ => rfl
  | [_], _, _ => rfl
  | [_, _], _, _ => rfl
  | c0 :: c1 :: c2 :: rest, ha, h =>
    unfold manufacturerIdIn
    dsimp only
    rw [if_pos]
    have k : ∀ c : Byte, c ∈ c0 :: c1 :: c2 :: rest → T.alpha c = true → Letter c := fun c hc => (hT.alpha c (ha c hc)).mp
    apply Classical.byContradiction
    intro hn
    simp only [Bool.or_eq_true, Bool.not_eq_true', not_or, Bool.not_eq_false] at hn
    exact h ⟨c0, c1, c2, rest, rfl, k _ (by simp) hn.1.1, k _ (by simp) hn.1.2, k _ (by simp) hn.2⟩

/-- C136 is false for codes with a small `i` where the locale is Turkish: the number is always another one (0 or that of another manufacturer). -/
theorem C136_turkish (hT : AsciiClasses T) (ht : TurkishI T) (c0 c1 c2 : Byte) (rest : List Byte) (h0 : Letter c0) (h1 : Letter c1) (h2 : Letter c2)
    (hi : c0 = 105 ∨ c1 = 105 ∨ c2 = 105) : manufacturerIdIn T (c0 :: c1 :: c2 :: rest) ≠ manufacturerId (c0 :: c1 :: c2 :: rest) := by
  obtain ⟨e, r1, r2⟩ := C17_letters c0 c1 c2 rest h0 h1 h2
  rw [e, manufacturerIdIn_letters hT rest h0 h1 h2]
  have u : ∀ c : Byte, Letter c → ∃ d : Int, T.upper c = (upper c).toNat + d ∧ (c ≠ 105 → d = 0) ∧ (c = 105 → d = T.upper 105 - 73) := fun c h => by
    by_cases e : c = 105
    · exact ⟨T.upper 105 - 73, by rw [e, show upper 105 = 73 by decide]; show T.upper 105 = 73 + (T.upper 105 - 73); omega, fun h => absurd e h, fun _ => rfl⟩
    · exact ⟨0, by rw [hT.upper c h e]; simp, fun _ => rfl, fun h => absurd h e⟩
  obtain ⟨d0, u0, a0, b0⟩ := u c0 h0
  obtain ⟨d1, u1, a1, b1⟩ := u c1 h1
  obtain ⟨d2, u2, a2, b2⟩ := u c2 h2
  have k0 := upper_capital c0 h0
  have k1 := upper_capital c1 h1
  have k2 := upper_capital c2 h2
  unfold Capital at k0 k1 k2
  rw [u0, u1, u2]
  unfold flagId at r1 r2 ⊢
  dsimp only
  intro hc
  have hx : T.upper 105 - 73 = 148 ∨ T.upper 105 - 73 = 32 ∨ T.upper 105 - 73 = -108 := by
    unfold TurkishI at ht
    omega
  generalize T.upper 105 - 73 = y at *
  have z0 : d0 = 0 ∨ d0 = y := (Classical.em (c0 = 105)).elim (fun h => .inr (b0 h)) (fun h => .inl (a0 h))
  have z1 : d1 = 0 ∨ d1 = y := (Classical.em (c1 = 105)).elim (fun h => .inr (b1 h)) (fun h => .inl (a1 h))
  have z2 : d2 = 0 ∨ d2 = y := (Classical.em (c2 = 105)).elim (fun h => .inr (b2 h)) (fun h => .inl (a2 h))
  have hne : d0 * 1024 + d1 * 32 + d2 ≠ 0 := by
    rcases hi with h | h | h
    · have := b0 h; omega
    · have := b1 h; omega
    · have := b2 h; omega
  clear a0 a1 a2 b0 b1 b2 hi
  rcases z0 with rfl | rfl <;> rcases z1 with rfl | rfl <;> rcases z2 with rfl | rfl <;> split at hc <;> omega

/-! Direct instances. -/

/-- The "C" locale. -/
theorem C136_c : AsciiClasses .c ∧ EnglishI .c :=
  ⟨⟨forall_byte (by decide +kernel), forall_byte (by decide +kernel), forall_byte (by decide +kernel)⟩, by unfold EnglishI; decide +kernel⟩

/-- A Turkish locale with UTF-8 text, where a small `i` has no capital of one byte. -/
def turkishUtf8 : Ctype := { Ctype.c with upper := fun b => if b = 105 then 105 else (toUpper b).toNat }

theorem C136_turkish_utf8 : AsciiClasses turkishUtf8 ∧ TurkishI turkishUtf8 :=
  ⟨⟨forall_byte (by decide +kernel), forall_byte (by decide +kernel), forall_byte (by decide +kernel)⟩, by unfold TurkishI; decide +kernel⟩

/-- C136 witness: in the Turkish locale `Kai` is not the number of `KAI` but that of `KBI`, and `sie` that of `TIE`. -/
theorem C136_witness : manufacturerIdIn .c ((cs! "Kai")) = 0x2c29 ∧ manufacturerIdIn turkishUtf8 ((cs! "Kai")) = 0x2c49 ∧
    manufacturerIdIn turkishUtf8 ((cs! "KBI")) = 0x2c49 ∧ manufacturerIdIn turkishUtf8 ((cs! "sie")) = manufacturerIdIn .c ((cs! "TIE")) := by decide +kernel

/-- `C136_codes` for `Kam` (Kamstrup) in the Turkish locale, `C136_turkish` for `sie`, `C136_hex` for `68 0b`. -/
example : manufacturerIdIn turkishUtf8 (cs! "Kam") = flagId 75 65 77 :=
  (C136_codes C136_turkish_utf8.1 75 97 109 [] (by decide) (by decide) (by decide) (.inl (by decide))).1
example : manufacturerIdIn turkishUtf8 (cs! "sie") ≠ manufacturerId (cs! "sie") :=
  C136_turkish C136_turkish_utf8.1 C136_turkish_utf8.2 115 105 101 [] (by decide) (by decide) (by decide) (.inr (.inl rfl))
example : hex2binIn turkishUtf8 [1, 1, 1] 3 (cs! "68 0b") = .ok ([0x68, 0x0b, 0], 2) :=
  (C136_hex C136_turkish_utf8.1 _ _ _ (by decide)).trans (by decide +kernel)
example : manufacturerIdIn turkishUtf8 (cs! "A1C") = 0 :=
  C136_others C136_turkish_utf8.1 _ (by decide) (by
    rintro ⟨c0, c1, c2, rest, h, -, h1, -⟩
    simp only [List.cons.injEq] at h
    rw [← h.2.1] at h1
    exact absurd h1 (by decide))

end Mbus
