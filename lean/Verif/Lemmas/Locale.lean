import Verif.Spec.Locale
import Verif.Lemmas.Value
/-
Lemmas for C129: the functions with a locale against those without.
-/
namespace Mbus
open Spec

/-! ### the "C" locale -/

theorem cLocale_cntrl : Locale.c.cntrl = isCntrl := rfl

theorem cLocale_fmtF : fmtFIn .c = fmtF := by
  funext x; cases x <;> rfl

theorem cLocale_recordDecode : recordDecodeIn .c = recordDecode := by
  funext b r; unfold recordDecodeIn recordDecode; rw [cLocale_fmtF]; rfl

theorem cLocale_recordValue : recordValueIn .c = recordValue := by
  funext b r; simp only [recordValueIn, recordValue, cLocale_recordDecode]

theorem cLocale_xmlLoop (m : Nat) : xmlLoopIn .c m = xmlLoop m := by
  funext s; induction s with
  | nil => rfl
  | cons c s ih => funext n d; simp only [xmlLoopIn, xmlLoop, ih, cLocale_cntrl]

theorem cLocale_strXmlEncode : strXmlEncodeIn .c = strXmlEncode := by
  funext d s m; simp only [strXmlEncodeIn, strXmlEncode, cLocale_xmlLoop]

theorem cLocale_encodeInto : encodeIntoIn .c = encodeInto := by
  funext e s; simp only [encodeIntoIn, encodeInto, cLocale_strXmlEncode]

theorem cLocale_headerXml : headerXmlIn .c = headerXml := by
  funext j h; simp only [headerXmlIn, headerXml, cLocale_encodeInto]

theorem cLocale_recordFieldsXml : recordFieldsXmlIn .c = recordFieldsXml := by
  funext e b r; simp only [recordFieldsXmlIn, recordFieldsXml, cLocale_encodeInto]

theorem cLocale_recordXml : recordXmlIn .c = recordXml := by
  funext j r s n k; simp only [recordXmlIn, recordXml, cLocale_encodeInto, cLocale_recordFieldsXml, cLocale_recordValue]

theorem cLocale_recordsXml (j : Nat → Nat → Byte) (k : Int) : recordsXmlIn .c j k = recordsXml j k := by
  funext rs; induction rs with
  | nil => rfl
  | cons r rs ih => funext n b; simp only [recordsXmlIn, recordsXml, ih, cLocale_recordXml]

theorem cLocale_variableXml : variableXmlIn .c = variableXml := by
  funext j k h rs; simp only [variableXmlIn, variableXml, cLocale_headerXml, cLocale_recordsXml]

theorem cLocale_fixedXml : fixedXmlIn .c = fixedXml := by
  funext j x; simp only [fixedXmlIn, fixedXml, cLocale_encodeInto]

theorem cLocale_errorXml : errorXmlIn .c = errorXml := by
  funext j x; simp only [errorXmlIn, errorXml, cLocale_encodeInto]

theorem cLocale_frameDataXml : frameDataXmlIn .c = frameDataXml := by
  funext j k x s
  simp only [frameDataXmlIn, frameDataXml, cLocale_errorXml, cLocale_fixedXml, cLocale_variableXml]

theorem cLocale_chainXml (j : Nat → Nat → Byte) : chainXmlIn .c j = chainXml j := by
  funext ts; induction ts with
  | nil => rfl
  | cons t ts ih => funext x f n k b; simp only [chainXmlIn, chainXml, ih, cLocale_recordsXml]

theorem cLocale_frameXml : frameXmlIn .c = frameXml := by
  funext j k t ts
  simp only [frameXmlIn, frameXml, cLocale_errorXml, cLocale_fixedXml, cLocale_headerXml, cLocale_recordsXml, cLocale_chainXml]

theorem cLocale_encodeOpt : encodeOptIn .c = encodeOpt := by
  funext e s; cases s <;> simp only [encodeOptIn, encodeOpt, cLocale_encodeInto]

theorem cLocale_nvalueXml : nvalueXmlIn .c = nvalueXml := by
  funext e b v; cases v <;> simp only [nvalueXmlIn, nvalueXml, cLocale_encodeInto, cLocale_fmtF]

theorem cLocale_nfieldsXml : nfieldsXmlIn .c = nfieldsXml := by
  funext e b v; cases v <;> simp only [nfieldsXmlIn, nfieldsXml, cLocale_encodeInto, cLocale_encodeOpt, cLocale_nvalueXml]

theorem cLocale_nrecordXml : nrecordXmlIn .c = nrecordXml := by
  funext n i e b; simp only [nrecordXmlIn, nrecordXml, cLocale_nfieldsXml]

theorem cLocale_nrecordsXml (j : Nat → Nat → Byte) : nrecordsXmlIn .c j = nrecordsXml j := by
  funext rs; induction rs with
  | nil => rfl
  | cons r rs ih => funext n e b; simp only [nrecordsXmlIn, nrecordsXml, ih, cLocale_nrecordXml]

theorem cLocale_variableXmlNormalized : variableXmlNormalizedIn .c = variableXmlNormalized := by
  funext j k v; simp only [variableXmlNormalizedIn, variableXmlNormalized, cLocale_headerXml, cLocale_nrecordsXml]

theorem cLocale_frameDataXmlNormalized : frameDataXmlNormalizedIn .c = frameDataXmlNormalized := by
  funext j k x
  simp only [frameDataXmlNormalizedIn, frameDataXmlNormalized, cLocale_fixedXml, cLocale_variableXmlNormalized]

/-! ### the relations -/

variable {L : Locale} {p : Byte}

theorem Spec.SameWay.bind {α β γ δ : Type} {R : α → β → Prop} {S : γ → δ → Prop} {x : C α} {y : C β} {f : α → C γ} {g : β → C δ}
    (h : SameWay R x y) (k : ∀ a b, R a b → SameWay S (f a) (g b)) : SameWay S (x >>= f) (y >>= g) := by
  cases h with
  | result a b r => exact k a b r
  | fault e => exact .fault e

theorem Spec.SameWay.refl {α : Type} (x : C α) : SameWay (· = ·) x x := by
  cases x with
  | error e => exact .fault e
  | ok a => exact .result a a rfl

theorem Spec.SameWay.along {α γ δ : Type} {S : γ → δ → Prop} (x : C α) {f : α → C γ} {g : α → C δ}
    (k : ∀ a, SameWay S (f a) (g a)) : SameWay S (x >>= f) (x >>= g) :=
  (SameWay.refl x).bind fun a b e => by subst e; exact k a

theorem Spec.SameWay.mono {α β : Type} {R S : α → β → Prop} {x : C α} {y : C β} (h : SameWay R x y) (k : ∀ a b, R a b → S a b) :
    SameWay S x y := by
  cases h with
  | result a b r => exact .result a b (k a b r)
  | fault e => exact .fault e

/-- `Translated` wherever the text is put. -/
def Frag (L : Locale) (p : Byte) (x y : List Byte) : Prop := ∀ s, Translated L p s x y

/-- the state of `Translated` after a text -/
def lastTag (s x : List Byte) : List Byte := x.foldl (fun s c => if c = 60 then [60] else s ++ [c]) s

theorem Spec.Translated.refl (s x : List Byte) : Translated L p s x x := by
  induction x generalizing s with
  | nil => exact .done s
  | cons c x ih => exact .same s c x x (ih _)

theorem Frag.refl (x : List Byte) : Frag L p x x := fun s => Translated.refl s x

theorem Spec.Translated.length {s x y : List Byte} (h : Translated L p s x y) : x.length = y.length := by
  induction h <;> simp_all

theorem Frag.length {x y : List Byte} (h : Frag L p x y) : x.length = y.length := (h []).length

theorem high_ne {c : Byte} (h : 128 ≤ c.toNat) : c ≠ 60 ∧ c ≠ 0 := by
  constructor <;> (intro e; subst e; revert h; decide)

theorem Spec.Translated.append {s x y u v : List Byte} (h : Translated L p s x y) (k : Translated L p (lastTag s x) u v) :
    Translated L p s (x ++ u) (y ++ v) := by
  induction h with
  | done s => exact k
  | same s c x y _ ih => exact .same s c _ _ (ih k)
  | point s x y hv _ ih => exact .point s _ _ hv (ih (by simpa [lastTag] using k))
  | blank s c x y hc hl _ ih =>
    exact .blank s c _ _ hc hl (ih (by simpa [lastTag, (high_ne hc).1] using k))

theorem Frag.append {x y u v : List Byte} (h : Frag L p x y) (k : Frag L p u v) : Frag L p (x ++ u) (y ++ v) :=
  fun s => (h s).append (k _)

theorem Spec.Translated.take {s x y : List Byte} (h : Translated L p s x y) (n : Nat) :
    Translated L p s (x.take n) (y.take n) := by
  induction h generalizing n with
  | done s => simpa using .done s
  | same s c x y _ ih => cases n with
    | zero => exact .done s
    | succ n => exact .same s c _ _ (ih n)
  | point s x y hv _ ih => cases n with
    | zero => exact .done s
    | succ n => exact .point s _ _ hv (ih n)
  | blank s c x y hc hl _ ih => cases n with
    | zero => exact .done s
    | succ n => exact .blank s c _ _ hc hl (ih n)

theorem Frag.take {x y : List Byte} (h : Frag L p x y) (n : Nat) : Frag L p (x.take n) (y.take n) := fun s => (h s).take n

theorem Spec.Translated.nul (hp : p ≠ 0) {s x y : List Byte} (h : Translated L p s x y) : 0 ∈ x ↔ 0 ∈ y := by
  induction h with
  | done s => exact Iff.rfl
  | same s c x y _ ih => simp [ih]
  | point s x y hv _ ih =>
    have : (0 : Byte) ≠ 46 := by decide
    simp [ih, hp.symm, this]
  | blank s c x y hc hl _ ih =>
    have : (0 : Byte) ≠ 32 := by decide
    simp [ih, (high_ne hc).2.symm, this]

theorem Spec.Translated.string (hp : p ≠ 0) {s x y : List Byte} (h : Translated L p s x y) :
    Translated L p s (x.takeWhile (· ≠ 0)) (y.takeWhile (· ≠ 0)) := by
  induction h with
  | done s => exact .done s
  | same s c x y _ ih =>
    by_cases hc : c = 0
    · simp only [hc, List.takeWhile_cons, ne_eq, not_true_eq_false, decide_false, Bool.false_eq_true, if_false]
      exact .done s
    · simp only [List.takeWhile_cons, ne_eq, hc, not_false_eq_true, decide_true, if_true]
      exact .same s c _ _ ih
  | point s x y hv _ ih =>
    have h46 : (46 : Byte) ≠ 0 := by decide
    simp only [List.takeWhile_cons, ne_eq, hp, h46, not_false_eq_true, decide_true, if_true]
    exact .point s _ _ hv ih
  | blank s c x y hc hl _ ih =>
    have h32 : (32 : Byte) ≠ 0 := by decide
    simp only [List.takeWhile_cons, ne_eq, (high_ne hc).2, h32, not_false_eq_true, decide_true, if_true]
    exact .blank s c _ _ hc hl ih

theorem cstr_frag (hp : p ≠ 0) {x y : List Byte} (h : Frag L p x y) : SameWay (Frag L p) (cstr x) (cstr y) := by
  unfold cstr
  by_cases h0 : 0 ∈ x
  · rw [if_pos h0, if_pos (((h []).nul hp).mp h0)]
    exact .result _ _ fun s => (h s).string hp
  · rw [if_neg h0, if_neg (fun h1 => h0 (((h []).nul hp).mpr h1)), h.length]
    exact .fault _

/-! ### texts without markup -/

/-- Two texts without `<` and NUL, the second a translation of the first; full stops may change only with flag `q`. -/
inductive PlainPair (L : Locale) (p : Byte) (q : Bool) : List Byte → List Byte → Prop
  | nil : PlainPair L p q [] []
  | same (c : Byte) (x y : List Byte) : c ≠ 60 → c ≠ 0 → PlainPair L p q x y → PlainPair L p q (c :: x) (c :: y)
  | point (x y : List Byte) : q = true → PlainPair L p q x y → PlainPair L p q (46 :: x) (p :: y)
  | blank (c : Byte) (x y : List Byte) : 128 ≤ c.toNat → L.cntrl c = true → PlainPair L p q x y → PlainPair L p q (c :: x) (32 :: y)

theorem PlainPair.append {q : Bool} {x y u v : List Byte} (h : PlainPair L p q x y) (k : PlainPair L p q u v) :
    PlainPair L p q (x ++ u) (y ++ v) := by
  induction h with
  | nil => exact k
  | same c x y h1 h2 _ ih => exact .same c _ _ h1 h2 ih
  | point x y hq _ ih => exact .point _ _ hq ih
  | blank c x y hc hl _ ih => exact .blank c _ _ hc hl ih

theorem PlainPair.refl {q : Bool} (x : List Byte) (h : 60 ∉ x) (h0 : 0 ∉ x) : PlainPair L p q x x := by
  induction x with
  | nil => exact .nil
  | cons c x ih =>
    simp only [List.mem_cons, not_or] at h h0
    exact .same c x x (fun e => h.1 e.symm) (fun e => h0.1 e.symm) (ih h.2 h0.2)

theorem PlainPair.length {q : Bool} {x y : List Byte} (h : PlainPair L p q x y) : x.length = y.length := by
  induction h <;> simp_all

theorem PlainPair.nonul {q : Bool} (hp : p ≠ 0) {x y : List Byte} (h : PlainPair L p q x y) : (0 : Byte) ∉ x ∧ (0 : Byte) ∉ y := by
  induction h with
  | nil => simp
  | same c x y h1 h2 _ ih => simp [ih, h2.symm]
  | point x y hq _ ih => simp [ih, hp.symm]
  | blank c x y hc hl _ ih => simp [ih, (high_ne hc).2.symm]

theorem PlainPair.frag {x y : List Byte} (h : PlainPair L p false x y) : Frag L p x y := by
  intro s
  induction h generalizing s with
  | nil => exact .done s
  | same c x y h1 h2 _ ih => exact .same s c _ _ (ih _)
  | point x y hq _ ih => cases hq
  | blank c x y hc hl _ ih => exact .blank s c _ _ hc hl (ih _)

theorem PlainPair.value {x y : List Byte} (h : PlainPair L p true x y) (s : List Byte) (hs : cs! "<Value>" <+: s) :
    Translated L p s x y := by
  induction h generalizing s with
  | nil => exact .done s
  | same c x y h1 h2 _ ih =>
    refine .same s c _ _ ?_
    rw [if_neg h1]
    exact ih _ (hs.trans (List.prefix_append _ _))
  | point x y hq _ ih => exact .point s _ _ hs (ih _ (hs.trans (List.prefix_append _ _)))
  | blank c x y hc hl _ ih => exact .blank s c _ _ hc hl (ih _ (hs.trans (List.prefix_append _ _)))

theorem lastTag_value (s : List Byte) : lastTag s (cs! "        <Value>") = cs! "<Value>" := by
  simp [lastTag]

/-- The Value element. -/
theorem PlainPair.element {x y : List Byte} (h : PlainPair L p true x y) (z : List Byte) :
    Frag L p (cs! "        <Value>" ++ x ++ z) (cs! "        <Value>" ++ y ++ z) := by
  intro s
  rw [List.append_assoc, List.append_assoc]
  refine (Translated.refl s _).append ?_
  rw [lastTag_value]
  exact (h.value _ (List.prefix_refl _)).append (Translated.refl _ _)

/-! ### escaping -/

/-- Two source texts that agree but for full stops (with flag `q`). -/
inductive Dotted (p : Byte) (q : Bool) : List Byte → List Byte → Prop
  | nil : Dotted p q [] []
  | same (c : Byte) (x y : List Byte) : Dotted p q x y → Dotted p q (c :: x) (c :: y)
  | point (x y : List Byte) : q = true → Dotted p q x y → Dotted p q (46 :: x) (p :: y)

theorem Dotted.refl {q : Bool} (x : List Byte) : Dotted p q x x := by
  induction x with
  | nil => exact .nil
  | cons c x ih => exact .same c x x ih

theorem Dotted.append {q : Bool} {x y u v : List Byte} (h : Dotted p q x y) (k : Dotted p q u v) :
    Dotted p q (x ++ u) (y ++ v) := by
  induction h with
  | nil => exact k
  | same c x y _ ih => exact .same c _ _ ih
  | point x y hq _ ih => exact .point _ _ hq ih

theorem Dotted.take {q : Bool} {x y : List Byte} (h : Dotted p q x y) (n : Nat) : Dotted p q (x.take n) (y.take n) := by
  induction h generalizing n with
  | nil => simpa using .nil
  | same c x y _ ih => cases n with
    | zero => exact .nil
    | succ n => exact .same c _ _ (ih n)
  | point x y hq _ ih => cases n with
    | zero => exact .nil
    | succ n => exact .point _ _ hq (ih n)

theorem Dotted.length {q : Bool} {x y : List Byte} (h : Dotted p q x y) : x.length = y.length := by
  induction h <;> simp_all

theorem Dotted.nul {q : Bool} (hp : p ≠ 0) {x y : List Byte} (h : Dotted p q x y) : 0 ∈ x ↔ 0 ∈ y := by
  induction h with
  | nil => exact Iff.rfl
  | same c x y _ ih => simp [ih]
  | point x y hq _ ih =>
    have : (0 : Byte) ≠ 46 := by decide
    simp [ih, hp.symm, this]

theorem Dotted.string {q : Bool} (hp : p ≠ 0) {x y : List Byte} (h : Dotted p q x y) :
    Dotted p q (x.takeWhile (· ≠ 0)) (y.takeWhile (· ≠ 0)) := by
  induction h with
  | nil => exact .nil
  | same c x y _ ih =>
    by_cases hc : c = 0
    · simp only [hc, List.takeWhile_cons, ne_eq, not_true_eq_false, decide_false, Bool.false_eq_true, if_false]
      exact .nil
    · simp only [List.takeWhile_cons, ne_eq, hc, not_false_eq_true, decide_true, if_true]
      exact .same c _ _ ih
  | point x y hq _ ih =>
    have h46 : (46 : Byte) ≠ 0 := by decide
    simp only [List.takeWhile_cons, ne_eq, hp, h46, not_false_eq_true, decide_true, if_true]
    exact .point _ _ hq ih

theorem cstr_dotted {q : Bool} (hp : p ≠ 0) {x y : List Byte} (h : Dotted p q x y) :
    SameWay (Dotted p q) (cstr x) (cstr y) := by
  unfold cstr
  by_cases h0 : 0 ∈ x
  · rw [if_pos h0, if_pos ((h.nul hp).mp h0)]
    exact .result _ _ (h.string hp)
  · rw [if_neg h0, if_neg (fun h1 => h0 ((h.nul hp).mpr h1)), h.length]
    exact .fault _

/-- What `xmlLoop` keeps between the two destinations. -/
structure Written (L : Locale) (p : Byte) (q : Bool) (n len : Nat) (d e : List Byte) : Prop where
  left : d.length = n
  right : e.length = n
  fits : len ≤ n
  text : PlainPair L p q (d.take len) (e.take len)

theorem wr_written {q : Bool} {n len : Nat} {d e : List Byte} (h : Written L p q n len d e) {a b : Byte}
    (hab : PlainPair L p q [a] [b]) : SameWay (Written L p q n (len + 1)) (wr d len a) (wr e len b) := by
  unfold wr
  by_cases hn : len < n
  · have h1 : len < d.length := by rw [h.left]; exact hn
    have h2 : len < e.length := by rw [h.right]; exact hn
    rw [if_pos h1, if_pos h2]
    refine .result _ _ ⟨by rw [List.length_set]; exact h.left, by rw [List.length_set]; exact h.right, hn, ?_⟩
    have t1 : (d.set len a).take (len + 1) = d.take len ++ [a] := by
      rw [List.set_eq_take_append_cons_drop, if_pos h1, List.take_append, List.take_take, List.length_take]
      have : min len d.length = len := by omega
      rw [this, show len + 1 - len = 1 by omega, show min (len + 1) len = len by omega]
      rfl
    have t2 : (e.set len b).take (len + 1) = e.take len ++ [b] := by
      rw [List.set_eq_take_append_cons_drop, if_pos h2, List.take_append, List.take_take, List.length_take]
      have : min len e.length = len := by omega
      rw [this, show len + 1 - len = 1 by omega, show min (len + 1) len = len by omega]
      rfl
    rw [t1, t2]
    exact h.text.append hab
  · rw [if_neg (by rw [h.left]; exact hn), if_neg (by rw [h.right]; exact hn), h.left, h.right]
    exact .fault _

theorem snprintf_written {q : Bool} {n len m : Nat} {d e : List Byte} (h : Written L p q n len d e) (t : List Byte)
    (hm : t.length < m) (ht : 60 ∉ t) (h0 : 0 ∉ t) :
    SameWay (Written L p q n (len + t.length)) (snprintfAt d len m t) (snprintfAt e len m t) := by
  unfold snprintfAt
  have hm0 : m ≠ 0 := by omega
  rw [if_neg hm0, if_neg hm0, List.take_of_length_le (by omega)]
  simp only [List.length_append, List.length_cons, List.length_nil, h.left, h.right]
  by_cases hn : len + (t.length + (0 + 1)) ≤ n
  · rw [if_pos hn, if_pos hn]
    have len1 : (d.take len).length = len := by rw [List.length_take, h.left]; omega
    have len2 : (e.take len).length = len := by rw [List.length_take, h.right]; omega
    refine .result _ _ ⟨?_, ?_, by omega, ?_⟩
    · simp only [List.length_append, List.length_drop, len1, h.left, List.length_cons, List.length_nil]; omega
    · simp only [List.length_append, List.length_drop, len2, h.right, List.length_cons, List.length_nil]; omega
    · have key : ∀ (x z : List Byte), x.length = len → (x ++ (t ++ [0]) ++ z).take (len + t.length) = x ++ t := by
        intro x z hx
        have : x ++ (t ++ [0]) ++ z = (x ++ t) ++ ([0] ++ z) := by simp
        rw [this, List.take_left' (by rw [List.length_append, hx])]
      rw [key _ _ len1, key _ _ len2]
      exact h.text.append (PlainPair.refl t ht h0)
  · rw [if_neg hn, if_neg hn]
    exact .fault _

theorem cntrl_low (hL : Ordinary L p) {c : Byte} (hc : c.toNat < 128) : L.cntrl c = isCntrl c := by
  apply Bool.eq_iff_iff.mpr
  rw [hL.ascii c hc]
  unfold isCntrl
  simp only [Bool.or_eq_true, decide_eq_true_eq]
  omega

theorem cntrl_high {c : Byte} (hc : 128 ≤ c.toNat) : isCntrl c = false := by
  unfold isCntrl
  simp only [Bool.or_eq_false_iff, decide_eq_false_iff_not]
  omega

theorem ne_high {c d : Byte} (hc : 128 ≤ c.toNat) (hd : d.toNat < 128) : c ≠ d := by
  intro e; subst e; omega

theorem xmlLoop_written (hL : Ordinary L p) {q : Bool} (m n : Nat) {s s' : List Byte} (hs : Dotted p q s s') (len : Nat)
    (d e : List Byte) (h : Written L p q n len d e) :
    SameWay (fun r r' : List Byte × Nat => r'.2 = r.2 ∧ Written L p q n r.2 r.1 r'.1) (xmlLoop m s len d)
      (xmlLoopIn L m s' len e) := by
  induction hs generalizing len d e with
  | nil =>
    unfold xmlLoop xmlLoopIn
    by_cases hl : len + 6 < m
    · rw [if_pos hl, if_pos hl]; exact .fault _
    · rw [if_neg hl, if_neg hl]; exact .result _ _ ⟨rfl, h⟩
  | same c x y _ ih =>
    rw [xmlLoop, xmlLoopIn]
    by_cases hl : ¬ len + 6 < m
    · rw [if_neg hl, if_neg hl]; exact .result _ _ ⟨rfl, h⟩
    have hl : len + 6 < m := Decidable.not_not.mp hl
    rw [if_pos hl, if_pos hl]
    by_cases h0 : c = 0
    · rw [if_pos h0, if_pos h0]; exact .result _ _ ⟨rfl, h⟩
    rw [if_neg h0, if_neg h0]
    by_cases hc : c.toNat < 128
    · rw [cntrl_low hL hc]
      by_cases h1 : isCntrl c = true
      · rw [if_pos h1, if_pos h1]
        exact (wr_written h (.same 32 _ _ (by decide) (by decide) .nil)).bind fun a b hab => ih _ a b hab
      rw [if_neg h1, if_neg h1]
      by_cases h2 : c = 38
      · rw [if_pos h2, if_pos h2]
        exact (snprintf_written h (cs! "&amp;") (by simp only [List.length_cons, List.length_nil]; omega) (by decide) (by decide)).bind
          fun a b hab => ih _ a b hab
      rw [if_neg h2, if_neg h2]
      by_cases h3 : c = 60
      · rw [if_pos h3, if_pos h3]
        exact (snprintf_written h (cs! "&lt;") (by simp only [List.length_cons, List.length_nil]; omega) (by decide) (by decide)).bind
          fun a b hab => ih _ a b hab
      rw [if_neg h3, if_neg h3]
      by_cases h4 : c = 62
      · rw [if_pos h4, if_pos h4]
        exact (snprintf_written h (cs! "&gt;") (by simp only [List.length_cons, List.length_nil]; omega) (by decide) (by decide)).bind
          fun a b hab => ih _ a b hab
      rw [if_neg h4, if_neg h4]
      by_cases h5 : c = 34
      · rw [if_pos h5, if_pos h5]
        exact (snprintf_written h (cs! "&quot;") (by simp only [List.length_cons, List.length_nil]; omega) (by decide) (by decide)).bind
          fun a b hab => ih _ a b hab
      rw [if_neg h5, if_neg h5]
      exact (wr_written h (.same c _ _ h3 h0 .nil)).bind fun a b hab => ih _ a b hab
    · have hc : 128 ≤ c.toNat := by omega
      have n2 : c ≠ 38 := ne_high hc (by decide)
      have n3 : c ≠ 60 := ne_high hc (by decide)
      have n4 : c ≠ 62 := ne_high hc (by decide)
      have n5 : c ≠ 34 := ne_high hc (by decide)
      simp only [cntrl_high hc, Bool.false_eq_true, n2, n3, n4, n5, if_false]
      by_cases h1 : L.cntrl c = true
      · rw [if_pos h1]
        exact (wr_written h (.blank c _ _ hc h1 .nil)).bind fun a b hab => ih _ a b hab
      · rw [if_neg h1]
        exact (wr_written h (.same c _ _ n3 h0 .nil)).bind fun a b hab => ih _ a b hab
  | point x y hq _ ih =>
    rw [xmlLoop, xmlLoopIn]
    by_cases hl : ¬ len + 6 < m
    · rw [if_neg hl, if_neg hl]; exact .result _ _ ⟨rfl, h⟩
    have hl : len + 6 < m := Decidable.not_not.mp hl
    have e1 : isCntrl 46 = false := by decide
    have e2 : ((46 : Byte) = 0) = False := by simp
    have e3 : ((46 : Byte) = 38) = False := by simp
    have e4 : ((46 : Byte) = 60) = False := by simp
    have e5 : ((46 : Byte) = 62) = False := by simp
    have e6 : ((46 : Byte) = 34) = False := by simp
    simp only [hl, if_true, e1, e2, e3, e4, e5, e6, hL.visible.1, hL.visible.2, hL.notMarkup.1, hL.notMarkup.2.1, hL.notMarkup.2.2.1,
      hL.notMarkup.2.2.2, if_false, Bool.false_eq_true]
    exact (wr_written h (.point _ _ hq .nil)).bind fun a b hab => ih _ a b hab

/-- Escaping into an array whose old content differs. -/
theorem encodeInto_plain (hL : Ordinary L p) {q : Bool} {s s' e e' : List Byte} (hs : Dotted p q s s')
    (he : e'.length = e.length) :
    SameWay (fun r r' : List Byte × List Byte => r'.1.length = r.1.length ∧ PlainPair L p q r.2 r'.2) (encodeInto e s)
      (encodeIntoIn L e' s') := by
  unfold encodeInto encodeIntoIn strXmlEncode strXmlEncodeIn
  rw [he]
  have h0 : Written L p q e.length 0 e e' := ⟨rfl, he, Nat.zero_le _, by simpa using .nil⟩
  have key : SameWay (fun r r' : List Byte => ∃ k, k < e.length ∧ r.length = e.length ∧ r'.length = e.length ∧
        PlainPair L p q (r.take k) (r'.take k) ∧ r[k]? = some 0 ∧ r'[k]? = some 0)
      (do let (dst, len) ← xmlLoop e.length (s ++ [0]) 0 e; wr dst len 0)
      (do let (dst, len) ← xmlLoopIn L e.length (s' ++ [0]) 0 e'; wr dst len 0) := by
    refine (xmlLoop_written hL _ _ (hs.append (Dotted.refl [0])) 0 _ _ h0).bind ?_
    rintro ⟨d, len⟩ ⟨d', len'⟩ ⟨hlen, hw⟩
    simp only at hlen hw
    subst hlen
    show SameWay _ (wr d len' 0) (wr d' len' 0)
    unfold wr
    rw [hw.left, hw.right]
    by_cases hn : len' < e.length
    · rw [if_pos hn, if_pos hn]
      refine .result _ _ ⟨len', hn, by rw [List.length_set, hw.left], by rw [List.length_set, hw.right], ?_, ?_, ?_⟩
      · rw [List.take_set_of_le (Nat.le_refl _), List.take_set_of_le (Nat.le_refl _)]; exact hw.text
      · rw [List.getElem?_set_self (by rw [hw.left]; exact hn)]
      · rw [List.getElem?_set_self (by rw [hw.right]; exact hn)]
    · rw [if_neg hn, if_neg hn]
      exact .fault _
  refine key.bind ?_
  rintro a b ⟨k, hk, ha, hb, hp, h1, h2⟩
  have str : ∀ x : List Byte, x[k]? = some 0 → (0 : Byte) ∉ x.take k → cstr x = .ok (x.take k) := by
    intro x hx hn
    obtain ⟨hlt, hx⟩ := List.getElem?_eq_some_iff.mp hx
    obtain ⟨u, w, hu, hxu⟩ : ∃ u w, x.take k = u ∧ x = u ++ 0 :: w :=
      ⟨x.take k, x.drop (k + 1), rfl, by rw [← hx, ← List.drop_eq_getElem_cons, List.take_append_drop]⟩
    rw [hu] at hn ⊢
    rw [hxu]
    unfold cstr
    rw [if_pos (by simp), List.takeWhile_append_of_pos]
    · simp
    · intro c hc
      simp only [ne_eq, decide_not, Bool.not_eq_eq_eq_not, Bool.not_true, decide_eq_false_iff_not]
      intro e; exact hn (e ▸ hc)
  have hnn := hp.nonul hL.visible.1
  simp only [str a h1 hnn.1, str b h2 hnn.2, ok_bind]
  exact .result _ _ ⟨by rw [ha, hb], hp⟩

/-! ### numbers -/

theorem digits_pair {q : Bool} (l : List Byte) (h : ∀ c ∈ l, 48 ≤ c.toNat ∧ c.toNat ≤ 57) : PlainPair L p q l l :=
  PlainPair.refl l (fun m => by have := h 60 m; revert this; decide) (fun m => by have := h 0 m; revert this; decide)

theorem padZero_digit (w : Nat) (l : List Byte) (h : ∀ c ∈ l, 48 ≤ c.toNat ∧ c.toNat ≤ 57) :
    ∀ c ∈ padZero w l, 48 ≤ c.toNat ∧ c.toNat ≤ 57 := by
  intro c hc
  rcases List.mem_append.mp hc with hc | hc
  · rw [List.eq_of_mem_replicate hc]; decide
  · exact h c hc

theorem fmtF_dotted (hL : L.point = [p]) (x : Flt) : Dotted p true (fmtF x) (fmtFIn L x) := by
  cases x with
  | inf neg => exact .refl _
  | nan neg => exact .refl _
  | fin neg m =>
    simp only [fmtF, fmtFIn, hL]
    exact ((Dotted.refl _).append (.point _ _ rfl .nil)).append (.refl _)

theorem fmtF_pair (hL : L.point = [p]) (x : Flt) : PlainPair L p true (fmtF x) (fmtFIn L x) := by
  have s : ∀ neg : Bool, (60 : Byte) ∉ (if neg then [45] else [] : List Byte) ∧ (0 : Byte) ∉ (if neg then [45] else [] : List Byte) := by
    decide
  cases x with
  | inf neg => cases neg <;> exact .refl _ (by decide) (by decide)
  | nan neg => cases neg <;> exact .refl _ (by decide) (by decide)
  | fin neg m =>
    simp only [fmtF, fmtFIn, hL]
    exact (((PlainPair.refl _ (s neg).1 (s neg).2).append (digits_pair _ (decDigits_digit _))).append (.point _ _ rfl .nil)).append
      (digits_pair _ (padZero_digit 6 _ (decDigits_digit _)))

theorem snprintf_dotted {q : Bool} {x y : List Byte} (d : List Byte) (pos n : Nat) (h : Dotted p q x y) :
    SameWay (Dotted p q) (snprintfAt d pos n x) (snprintfAt d pos n y) := by
  unfold snprintfAt
  by_cases hn : n = 0
  · rw [if_pos hn, if_pos hn]; exact .result _ _ (.refl _)
  rw [if_neg hn, if_neg hn]
  have hl : (y.take (n - 1) ++ [0]).length = (x.take (n - 1) ++ [0]).length := by
    simp only [List.length_append, List.length_take, h.length]
  simp only [hl]
  by_cases hf : pos + (x.take (n - 1) ++ [0]).length ≤ d.length
  · rw [if_pos hf, if_pos hf]
    exact .result _ _ (((Dotted.refl _).append ((h.take _).append (.refl _))).append (.refl _))
  · rw [if_neg hf, if_neg hf]; exact .fault _

/-- Records that are not 32-bit reals read the same in every locale. -/
theorem recordDecode_other (b : List Byte) (r : Record) (h : (r.dif &&& 0x0F).toNat ≠ 5) : recordDecodeIn L b r = recordDecode b r := by
  unfold recordDecodeIn recordDecode
  generalize (r.dif &&& 0x0F).toNat = k at h
  refine congrArg _ (funext fun v0 => ?_)
  match k, h with
  | 5, h => exact absurd rfl h
  | 0, _ | 1, _ | 2, _ | 3, _ | 4, _ | 6, _ | 7, _ | 8, _ | 9, _ | 10, _ | 11, _ | 12, _ | 13, _ | 14, _ | 15, _ => rfl
  | k + 16, _ => rfl

theorem recordDecode_real (b : List Byte) (r : Record) (h : (r.dif &&& 0x0F).toNat = 5) :
    recordDecode b r = (do let _ ← r.vife.rd 0; let f ← floatDecode r.data.bytes; snprintfAt b 0 768 (fmtF f)) ∧
    recordDecodeIn L b r = (do let _ ← r.vife.rd 0; let f ← floatDecode r.data.bytes; snprintfAt b 0 768 (fmtFIn L f)) := by
  unfold recordDecodeIn recordDecode
  rw [h]
  exact ⟨rfl, rfl⟩

theorem recordValue_dotted (hL : Ordinary L p) (b : List Byte) (r : Record) :
    SameWay (Dotted p true) (recordValue b r) (recordValueIn L b r) := by
  unfold recordValue recordValueIn
  have key : SameWay (Dotted p true) (recordDecode b r) (recordDecodeIn L b r) := by
    by_cases h : (r.dif &&& 0x0F).toNat = 5
    · rw [(recordDecode_real (L := L) b r h).1, (recordDecode_real (L := L) b r h).2]
      exact .along _ fun _ => .along _ fun f => snprintf_dotted _ _ _ (fmtF_dotted hL.point f)
    · rw [recordDecode_other b r h]
      exact (SameWay.refl _).mono fun a _ e => e ▸ Dotted.refl a
  refine key.bind fun x y hxy => ?_
  refine (cstr_dotted hL.visible.1 hxy).bind fun u v huv => ?_
  exact .result _ _ (huv.take _)

/-! ### buffers -/

/-- Two buffers in the same state, the second with a translation of the text of the first. -/
structure Twin (L : Locale) (p : Byte) (b c : XBuf) : Prop where
  len : c.len = b.len
  size : c.mem.length = b.mem.length
  text : Frag L p (b.mem.take b.len) (c.mem.take b.len)
  rest : c.mem.drop b.len = b.mem.drop b.len

theorem Twin.refl (b : XBuf) : Twin L p b b := ⟨rfl, rfl, .refl _, rfl⟩

theorem Twin.mem {b c : XBuf} (h : Twin L p b c) : Frag L p b.mem c.mem := by
  have := h.text.append (Frag.refl (L := L) (p := p) (b.mem.drop b.len))
  rw [List.take_append_drop, ← h.rest, List.take_append_drop] at this
  exact this

theorem Twin.put {b c : XBuf} (h : Twin L p b c) {s t : List Byte} (hst : Frag L p s t) :
    SameWay (Twin L p) (b.put s) (c.put t) := by
  unfold XBuf.put
  rw [h.len, h.size]
  by_cases hl : b.mem.length < b.len
  · rw [if_pos hl, if_pos hl]; exact .fault _
  rw [if_neg hl, if_neg hl]
  have hlen := hst.length
  have hz := h.size
  unfold snprintfAt
  by_cases hn : b.mem.length - b.len = 0
  · rw [if_pos hn, if_pos hn]
    refine .result _ _ ⟨by simp only [hlen], h.size, ?_, ?_⟩
    · show Frag L p (b.mem.take (b.len + s.length)) (c.mem.take (b.len + s.length))
      rw [List.take_of_length_le (by omega), List.take_of_length_le (by omega)]
      exact h.mem
    · show c.mem.drop (b.len + s.length) = b.mem.drop (b.len + s.length)
      rw [List.drop_of_length_le (by omega), List.drop_of_length_le (by omega)]
  rw [if_neg hn, if_neg hn]
  have e1 : (t.take (b.mem.length - b.len - 1) ++ [0]).length = (s.take (b.mem.length - b.len - 1) ++ [0]).length := by
    simp only [List.length_append, List.length_take, hlen]
  have e2 : b.len + (s.take (b.mem.length - b.len - 1) ++ [0]).length ≤ b.mem.length := by
    simp only [List.length_append, List.length_take, List.length_cons, List.length_nil]; omega
  simp only [e1]
  rw [if_pos e2, if_pos (by rw [h.size]; exact e2)]
  generalize hk : (s.take (b.mem.length - b.len - 1) ++ [0]).length = k at e1 e2
  have p1 : (b.mem.take b.len).length = b.len := by rw [List.length_take]; omega
  have p2 : (c.mem.take b.len).length = b.len := by rw [List.length_take, h.size]; omega
  have whole : Frag L p (b.mem.take b.len ++ (s.take (b.mem.length - b.len - 1) ++ [0]) ++ b.mem.drop (b.len + k))
      (c.mem.take b.len ++ (t.take (b.mem.length - b.len - 1) ++ [0]) ++ c.mem.drop (b.len + k)) := by
    refine (h.text.append ((hst.take _).append (.refl _))).append ?_
    rw [← List.drop_drop, ← List.drop_drop, h.rest]
    exact .refl _
  refine .result _ _ ⟨by simp only [hlen], ?_, whole.take _, ?_⟩
  · simp only [List.length_append, List.length_drop, p1, p2, h.size, List.length_take, hlen]
  · show List.drop (b.len + s.length) _ = List.drop (b.len + s.length) _
    by_cases hfit : s.length ≤ b.mem.length - b.len - 1
    · have t1 : s.take (b.mem.length - b.len - 1) = s := List.take_of_length_le hfit
      have t2 : t.take (b.mem.length - b.len - 1) = t := List.take_of_length_le (by omega)
      have cut : ∀ (x z w : List Byte), x.length = b.len → z.length = s.length →
          (x ++ (z ++ [0]) ++ w).drop (b.len + s.length) = [0] ++ w := by
        intro x z w hx hz
        have : x ++ (z ++ [0]) ++ w = (x ++ z) ++ ([0] ++ w) := by simp
        rw [this, List.drop_left' (by rw [List.length_append, hx, hz])]
      rw [t1, t2, cut _ _ _ p1 rfl, cut _ _ _ p2 hlen.symm, ← List.drop_drop, ← List.drop_drop, h.rest]
    · have l1 : (b.mem.take b.len ++ (s.take (b.mem.length - b.len - 1) ++ [0]) ++ b.mem.drop (b.len + k)).length ≤ b.len + s.length := by
        simp only [List.length_append, List.length_drop, List.length_take, List.length_cons, List.length_nil]
        simp only [List.length_append, List.length_take, List.length_cons, List.length_nil] at hk
        omega
      rw [List.drop_of_length_le l1, List.drop_of_length_le (by rw [← whole.length]; exact l1)]

theorem Twin.grow {b c : XBuf} (h : Twin L p b c) (junk : Nat → Byte) : Twin L p (b.grow junk) (c.grow junk) := by
  unfold XBuf.grow
  rw [h.len, h.size]
  by_cases hg : b.len ≤ b.mem.length ∧ b.mem.length - b.len < 1024
  · rw [if_pos hg, if_pos hg]
    refine ⟨rfl, by simp only [List.length_append, h.size], ?_, ?_⟩
    · show Frag L p (List.take b.len _) (List.take b.len _)
      rw [List.take_append_of_le_length hg.1, List.take_append_of_le_length (by rw [h.size]; exact hg.1)]
      exact h.text
    · show List.drop b.len _ = List.drop b.len _
      rw [List.drop_append_of_le_length hg.1, List.drop_append_of_le_length (by rw [h.size]; exact hg.1), h.rest]
  · rw [if_neg hg, if_neg hg]
    exact ⟨h.len, h.size, h.text, h.rest⟩

/-! ### documents -/

theorem Twin.lit {b c : XBuf} (h : Twin L p b c) (s : List Byte) : SameWay (Twin L p) (b.put s) (c.put s) := h.put (.refl s)

/-- Buffer and scratch array. -/
def TwinE (L : Locale) (p : Byte) (x y : XBuf × List Byte) : Prop := Twin L p x.1 y.1 ∧ y.2.length = x.2.length

/-- Scratch array and escaped text without `Value` part. -/
theorem encode_frag (hL : Ordinary L p) (s : List Byte) {e e' : List Byte} (he : e'.length = e.length) :
    SameWay (fun r r' : List Byte × List Byte => r'.1.length = r.1.length ∧ Frag L p r.2 r'.2) (encodeInto e s)
      (encodeIntoIn L e' s) :=
  (encodeInto_plain hL (Dotted.refl s) he).mono fun _ _ h => ⟨h.1, h.2.frag⟩

theorem Frag.around {x y : List Byte} (h : Frag L p x y) (a z : List Byte) : Frag L p (a ++ x ++ z) (a ++ y ++ z) :=
  ((Frag.refl a).append h).append (.refl z)

theorem headerXml_twin (hL : Ordinary L p) (junk : Nat → Byte) (h : VarHeader) :
    SameWay (Frag L p) (headerXml junk h) (headerXmlIn L junk h) := by
  unfold headerXml headerXmlIn
  refine ((Twin.refl (L := L) (p := p) _).lit _).bind fun _ _ t => .along _ fun _ => (t.lit _).bind fun _ _ t => .along _ fun _ => .along _ fun _ =>
    .along _ fun _ => (t.lit _).bind fun _ _ t => (t.lit _).bind fun _ _ t => .along _ fun _ => ?_
  refine (encode_frag hL _ rfl).bind ?_
  rintro ⟨e, x⟩ ⟨e', x'⟩ ⟨he, hx⟩
  refine (t.put (hx.around _ _)).bind fun _ _ t => ?_
  refine (encode_frag hL _ he).bind ?_
  rintro ⟨e, x⟩ ⟨e', x'⟩ ⟨he, hx⟩
  refine (t.put (hx.around _ _)).bind fun _ _ t => (t.lit _).bind fun _ _ t => (t.lit _).bind fun _ _ t => .along _ fun _ =>
    .along _ fun _ => (t.lit _).bind fun _ _ t => (t.lit _).bind fun _ _ t => cstr_frag hL.visible.1 t.mem

theorem tariffXml_twin {b c : XBuf} (h : Twin L p b c) (r : Record) : SameWay (Twin L p) (tariffXml b r) (tariffXml c r) := by
  unfold tariffXml
  refine .along _ fun ta => ?_
  by_cases h0 : ta ≥ 0
  · rw [if_pos h0, if_pos h0]
    exact (h.lit _).bind fun _ _ t => .along _ fun _ => t.lit _
  · rw [if_neg h0, if_neg h0]; exact .result _ _ h

theorem stampXml_twin {b c : XBuf} (h : Twin L p b c) (s : Option (List Byte)) : SameWay (Twin L p) (stampXml b s) (stampXml c s) := by
  cases s with
  | none => exact .result _ _ h
  | some s => exact h.lit _

theorem recordFieldsXml_twin (hL : Ordinary L p) (e : List Byte) {b c : XBuf} (h : Twin L p b c) (r : Record) :
    SameWay (TwinE L p) (recordFieldsXml e b r) (recordFieldsXmlIn L e c r) := by
  unfold recordFieldsXml recordFieldsXmlIn
  by_cases h1 : r.dif = 0x0F
  · rw [if_pos h1, if_pos h1]
    exact (h.lit _).bind fun _ _ t => .result _ _ ⟨t, rfl⟩
  rw [if_neg h1, if_neg h1]
  by_cases h2 : r.dif = 0x1F
  · rw [if_pos h2, if_pos h2]
    exact (h.lit _).bind fun _ _ t => .result _ _ ⟨t, rfl⟩
  rw [if_neg h2, if_neg h2]
  refine (encode_frag hL _ rfl).bind ?_
  rintro ⟨e, x⟩ ⟨e', x'⟩ ⟨he, hx⟩
  refine (h.put (hx.around _ _)).bind fun _ _ t => .along _ fun _ => (t.lit _).bind fun _ _ t => (tariffXml_twin t r).bind fun _ _ t =>
    .along _ fun _ => ?_
  refine (encode_frag hL _ he).bind ?_
  rintro ⟨e, x⟩ ⟨e', x'⟩ ⟨he, hx⟩
  exact (t.put (hx.around _ _)).bind fun _ _ t => .result _ _ ⟨t, he⟩

theorem recordXml_twin (hL : Ordinary L p) (junk : Nat → Byte) (r : Record) (stamp : Option (List Byte)) (cnt fc : Int) :
    SameWay (Frag L p) (recordXml junk r stamp cnt fc) (recordXmlIn L junk r stamp cnt fc) := by
  unfold recordXml recordXmlIn
  refine .along _ fun b => (recordFieldsXml_twin hL _ (.refl b) r).bind ?_
  rintro ⟨b, e⟩ ⟨b', e'⟩ ⟨t, he⟩
  refine (recordValue_dotted hL _ r).bind fun v v' hv => ?_
  refine (encodeInto_plain hL hv he).bind ?_
  rintro ⟨e, x⟩ ⟨e', x'⟩ ⟨he, hx⟩
  exact (t.put (hx.element _)).bind fun _ _ t => (stampXml_twin t _).bind fun _ _ t => (t.lit _).bind fun _ _ t =>
    cstr_frag hL.visible.1 t.mem

theorem recordsXml_twin (hL : Ordinary L p) (junk : Nat → Nat → Byte) (fc : Int) (rs : List Stamped) (cnt : Int) {b c : XBuf}
    (h : Twin L p b c) :
    SameWay (fun x y : XBuf × Int => Twin L p x.1 y.1 ∧ y.2 = x.2) (recordsXml junk fc rs cnt b) (recordsXmlIn L junk fc rs cnt c) := by
  induction rs generalizing cnt b c with
  | nil => exact .result _ _ ⟨h, rfl⟩
  | cons r rs ih =>
    obtain ⟨r, stamp⟩ := r
    unfold recordsXml recordsXmlIn
    exact (recordXml_twin hL _ r stamp cnt fc).bind fun x y hxy => ((h.grow _).put hxy).bind fun _ _ t => .along _ fun cnt => ih cnt t

theorem start_twin {α β : Type} {R : α → β → Prop} (b : XBuf) {f : XBuf → C α} {g : XBuf → C β}
    (k : ∀ b c, Twin L p b c → SameWay R (f b) (g c)) : SameWay R (f b) (g b) := k b b (.refl b)

/-- The memory of a document. -/
theorem Twin.doc {b c : XBuf} (h : Twin L p b c) : Translated L p [] b.mem c.mem := h.mem []

theorem variableXml_twin (hL : Ordinary L p) (junk0 : Nat → Byte) (junk : Nat → Nat → Byte) (h : VarHeader) (rs : List Stamped) :
    SameWay (Translated L p []) (variableXml junk0 junk h rs) (variableXmlIn L junk0 junk h rs) := by
  unfold variableXml variableXmlIn
  refine ((Twin.refl (L := L) (p := p) _).lit _).bind fun _ _ t => (t.lit _).bind fun _ _ t => (headerXml_twin hL _ h).bind fun _ _ hx =>
    (t.put hx).bind fun _ _ t => (recordsXml_twin hL junk _ rs 0 t).bind ?_
  rintro ⟨b, _⟩ ⟨b', _⟩ ⟨t, _⟩
  exact (t.lit _).bind fun _ _ t => .result _ _ t.doc

theorem fixedXml_twin (hL : Ordinary L p) (junk : Nat → Byte) (x : FixedData) :
    SameWay (Translated L p []) (fixedXml junk x) (fixedXmlIn L junk x) := by
  unfold fixedXml fixedXmlIn
  refine ((Twin.refl (L := L) (p := p) _).lit _).bind fun _ _ t => (t.lit _).bind fun _ _ t => (t.lit _).bind fun _ _ t => .along _ fun _ =>
    (t.lit _).bind fun _ _ t => (encode_frag hL _ rfl).bind ?_
  rintro ⟨e, x⟩ ⟨e', x'⟩ ⟨he, hx⟩
  refine (t.put (hx.around _ _)).bind fun _ _ t => (t.lit _).bind fun _ _ t => (t.lit _).bind fun _ _ t => (t.lit _).bind fun _ _ t =>
    (t.lit _).bind fun _ _ t => (encode_frag hL _ he).bind ?_
  rintro ⟨e, x⟩ ⟨e', x'⟩ ⟨he, hx⟩
  refine (t.put (hx.around _ _)).bind fun _ _ t => (encode_frag hL _ he).bind ?_
  rintro ⟨e, x⟩ ⟨e', x'⟩ ⟨he, hx⟩
  refine (t.put (hx.around _ _)).bind fun _ _ t => .along _ fun _ => (t.lit _).bind fun _ _ t => (t.lit _).bind fun _ _ t =>
    (t.lit _).bind fun _ _ t => (encode_frag hL _ he).bind ?_
  rintro ⟨e, x⟩ ⟨e', x'⟩ ⟨he, hx⟩
  refine (t.put (hx.around _ _)).bind fun _ _ t => (encode_frag hL _ he).bind ?_
  rintro ⟨e, x⟩ ⟨e', x'⟩ ⟨he, hx⟩
  exact (t.put (hx.around _ _)).bind fun _ _ t => .along _ fun _ => (t.lit _).bind fun _ _ t => (t.lit _).bind fun _ _ t =>
    (t.lit _).bind fun _ _ t => .result _ _ t.doc

theorem errorXml_twin (hL : Ordinary L p) (junk : Nat → Byte) (x : Int) :
    SameWay (Translated L p []) (errorXml junk x) (errorXmlIn L junk x) := by
  unfold errorXml errorXmlIn
  refine ((Twin.refl (L := L) (p := p) _).lit _).bind fun _ _ t => (t.lit _).bind fun _ _ t => (t.lit _).bind fun _ _ t => (encode_frag hL _ rfl).bind ?_
  rintro ⟨e, x⟩ ⟨e', x'⟩ ⟨he, hx⟩
  exact (t.put (hx.around _ _)).bind fun _ _ t => (t.lit _).bind fun _ _ t => (t.lit _).bind fun _ _ t => .result _ _ t.doc

theorem some_twin {x y : C (List Byte)} (h : SameWay (Translated L p []) x y) :
    SameWay (SameDoc L p) (do let m ← x; .ok (some m)) (do let m ← y; .ok (some m)) :=
  h.bind fun _ _ h => .result _ _ (.doc _ _ h)

theorem frameDataXml_twin (hL : Ordinary L p) (junk0 : Nat → Byte) (junk : Nat → Nat → Byte) (x : FrameData)
    (stamps : List (Option (List Byte))) :
    SameWay (SameDoc L p) (frameDataXml junk0 junk x stamps) (frameDataXmlIn L junk0 junk x stamps) := by
  unfold frameDataXml frameDataXmlIn
  by_cases h1 : x.type = DATA_ERROR
  · rw [if_pos h1, if_pos h1]; exact some_twin (errorXml_twin hL _ _)
  rw [if_neg h1, if_neg h1]
  by_cases h2 : x.type = DATA_FIXED
  · rw [if_pos h2, if_pos h2]; exact some_twin (fixedXml_twin hL _ _)
  rw [if_neg h2, if_neg h2]
  by_cases h3 : x.type = DATA_VARIABLE
  · rw [if_pos h3, if_pos h3]; exact some_twin (variableXml_twin hL _ _ _ _)
  rw [if_neg h3, if_neg h3]
  exact .result _ _ .null

/-- Results of `mbus_frame_xml`. -/
def TwinOut (L : Locale) (p : Byte) (x y : XmlOut) : Prop :=
  SameDoc L p x.text y.text ∧ y.lostBuffer = x.lostBuffer ∧ y.lostRecords = x.lostRecords

theorem chainXml_twin (hL : Ordinary L p) (junk : Nat → Nat → Byte) (ts : List Telegram) (x : FrameData) (freed : Bool) (cnt fc : Int)
    {b c : XBuf} (h : Twin L p b c) :
    SameWay (TwinOut L p) (chainXml junk ts x freed cnt fc b) (chainXmlIn L junk ts x freed cnt fc c) := by
  induction ts generalizing x freed cnt fc b c with
  | nil => exact (h.lit _).bind fun _ _ t => .result _ _ ⟨.doc _ _ t.doc, rfl, rfl⟩
  | cons f ts ih =>
    obtain ⟨f, stamp⟩ := f
    unfold chainXml chainXmlIn
    refine .along _ ?_
    rintro ⟨rc, x⟩
    by_cases h1 : rc = -1
    · simp only [if_pos h1]; exact .result _ _ ⟨.null, rfl, rfl⟩
    simp only [if_neg h1]
    generalize hd : (freed && decide (x.type ≠ DATA_VARIABLE)) = d
    cases d with
    | true => exact .fault _
    | false =>
      refine (recordsXml_twin hL junk fc _ cnt h).bind ?_
      rintro ⟨b, cnt⟩ ⟨b', cnt'⟩ ⟨t, hc⟩
      simp only at hc t
      subst hc
      exact .along _ fun fc => ih _ _ _ fc t

theorem frameXml_twin (hL : Ordinary L p) (junk0 : Nat → Byte) (junk : Nat → Nat → Byte) (t : Telegram) (ts : List Telegram) :
    SameWay (TwinOut L p) (frameXml junk0 junk t ts) (frameXmlIn L junk0 junk t ts) := by
  unfold frameXml frameXmlIn
  refine .along _ ?_
  rintro ⟨rc, x⟩
  by_cases h1 : rc = -1
  · simp only [if_pos h1]; exact .result _ _ ⟨.null, rfl, rfl⟩
  simp only [if_neg h1]
  by_cases h2 : x.type = DATA_ERROR
  · simp only [if_pos h2]
    exact (errorXml_twin hL _ _).bind fun _ _ h => .result _ _ ⟨.doc _ _ h, rfl, rfl⟩
  simp only [if_neg h2]
  by_cases h3 : x.type = DATA_FIXED
  · simp only [if_pos h3]
    exact (fixedXml_twin hL _ _).bind fun _ _ h => .result _ _ ⟨.doc _ _ h, rfl, rfl⟩
  simp only [if_neg h3]
  by_cases h4 : x.type = DATA_VARIABLE
  · simp only [if_pos h4]
    refine ((Twin.refl (L := L) (p := p) _).lit _).bind fun _ _ t => (t.lit _).bind fun _ _ t => (headerXml_twin hL _ _).bind fun _ _ hx =>
      (t.put hx).bind fun _ _ t => (recordsXml_twin hL junk _ _ 0 t).bind ?_
    rintro ⟨b, cnt⟩ ⟨b', cnt'⟩ ⟨t, hc⟩
    simp only at hc t
    subst hc
    exact .along _ fun fc => chainXml_twin hL junk ts _ _ _ fc t
  · simp only [if_neg h4]; exact .result _ _ ⟨.null, rfl, rfl⟩

theorem encodeOpt_frag (hL : Ordinary L p) (s : Option (List Byte)) {e e' : List Byte} (he : e'.length = e.length) :
    SameWay (fun r r' : List Byte × List Byte => r'.1.length = r.1.length ∧ Frag L p r.2 r'.2) (encodeOpt e s)
      (encodeOptIn L e' s) := by
  cases s with
  | some s => exact encode_frag hL s he
  | none =>
    show SameWay _ (do let e ← wr e 0 0; let t ← cstr e; .ok (e, t)) (do let e ← wr e' 0 0; let t ← cstr e; .ok (e, t))
    cases e with
    | nil =>
      cases e' with
      | nil => exact .fault _
      | cons c e' => simp at he
    | cons d e =>
      cases e' with
      | nil => simp at he
      | cons c e' =>
        have w : ∀ (d : Byte) (e : List Byte), (do let e ← wr (d :: e) 0 0; let t ← cstr e; .ok (e, t) : C (List Byte × List Byte)) =
            .ok (0 :: e, []) := by
          intro d e
          simp [wr, cstr]
        rw [w, w]
        exact .result _ _ ⟨by simpa using he, .refl _⟩

theorem ntariffXml_twin {b c : XBuf} (h : Twin L p b c) (n : NRecord) : SameWay (Twin L p) (ntariffXml b n) (ntariffXml c n) := by
  unfold ntariffXml
  by_cases h0 : n.tariff ≥ 0
  · rw [if_pos h0, if_pos h0]
    exact (h.lit _).bind fun _ _ t => t.lit _
  · rw [if_neg h0, if_neg h0]; exact .result _ _ h

theorem nvalueXml_twin (hL : Ordinary L p) {e e' : List Byte} (he : e'.length = e.length) {b c : XBuf} (h : Twin L p b c) (v : NVal) :
    SameWay (TwinE L p) (nvalueXml e b v) (nvalueXmlIn L e' c v) := by
  cases v with
  | num x => exact (h.put ((fmtF_pair hL.point x).element _)).bind fun _ _ t => .result _ _ ⟨t, he⟩
  | str s n =>
    refine .along (cstr s) fun s => (encode_frag hL s he).bind ?_
    rintro ⟨e, x⟩ ⟨e', x'⟩ ⟨he, hx⟩
    exact (h.put (hx.around _ _)).bind fun _ _ t => .result _ _ ⟨t, he⟩

theorem nfieldsXml_twin (hL : Ordinary L p) {e e' : List Byte} (he : e'.length = e.length) {b c : XBuf} (h : Twin L p b c)
    (n : Option NRecord) : SameWay (TwinE L p) (nfieldsXml e b n) (nfieldsXmlIn L e' c n) := by
  cases n with
  | none => exact .result _ _ ⟨h, he⟩
  | some n =>
    unfold nfieldsXml nfieldsXmlIn
    refine (encode_frag hL _ he).bind ?_
    rintro ⟨e, x⟩ ⟨e', x'⟩ ⟨he, hx⟩
    refine (h.put (hx.around _ _)).bind fun _ _ t => (t.lit _).bind fun _ _ t => (ntariffXml_twin t n).bind fun _ _ t =>
      (encodeOpt_frag hL _ he).bind ?_
    rintro ⟨e, x⟩ ⟨e', x'⟩ ⟨he, hx⟩
    refine (t.put (hx.around _ _)).bind fun _ _ t => (encodeOpt_frag hL _ he).bind ?_
    rintro ⟨e, x⟩ ⟨e', x'⟩ ⟨he, hx⟩
    exact (t.put (hx.around _ _)).bind fun _ _ t => nvalueXml_twin hL he t _

theorem nrecordXml_twin (hL : Ordinary L p) (n : Option NRecord) (i : Nat) {e e' : List Byte} (he : e'.length = e.length) {b c : XBuf}
    (h : Twin L p b c) : SameWay (TwinE L p) (nrecordXml n i e b) (nrecordXmlIn L n i e' c) := by
  unfold nrecordXml nrecordXmlIn
  refine (h.lit _).bind fun _ _ t => (nfieldsXml_twin hL he t n).bind ?_
  rintro ⟨b, e⟩ ⟨b', e'⟩ ⟨t, he⟩
  exact (t.lit _).bind fun _ _ t => .result _ _ ⟨t, he⟩

theorem nrecordsXml_twin (hL : Ordinary L p) (junk : Nat → Nat → Byte) (rs : List Record) (i : Nat) {e e' : List Byte}
    (he : e'.length = e.length) {b c : XBuf} (h : Twin L p b c) :
    SameWay (Twin L p) (nrecordsXml junk rs i e b) (nrecordsXmlIn L junk rs i e' c) := by
  induction rs generalizing i e e' b c with
  | nil => exact .result _ _ h
  | cons r rs ih =>
    unfold nrecordsXml nrecordsXmlIn
    refine .along _ ?_
    rintro ⟨n, _⟩
    refine (nrecordXml_twin hL n i he (h.grow _)).bind ?_
    rintro ⟨b, e⟩ ⟨b', e'⟩ ⟨t, he⟩
    exact ih (i + 1) he t

theorem variableXmlNormalized_twin (hL : Ordinary L p) (junk0 : Nat → Byte) (junk : Nat → Nat → Byte) (v : VarData) :
    SameWay (Translated L p []) (variableXmlNormalized junk0 junk v) (variableXmlNormalizedIn L junk0 junk v) := by
  unfold variableXmlNormalized variableXmlNormalizedIn
  exact ((Twin.refl (L := L) (p := p) _).lit _).bind fun _ _ t => (t.lit _).bind fun _ _ t => (headerXml_twin hL _ _).bind fun _ _ hx =>
    (t.put hx).bind fun _ _ t => (nrecordsXml_twin hL junk _ 0 rfl t).bind fun _ _ t => (t.lit _).bind fun _ _ t => .result _ _ t.doc

theorem frameDataXmlNormalized_twin (hL : Ordinary L p) (junk0 : Nat → Byte) (junk : Nat → Nat → Byte) (x : FrameData) :
    SameWay (SameDoc L p) (frameDataXmlNormalized junk0 junk x) (frameDataXmlNormalizedIn L junk0 junk x) := by
  unfold frameDataXmlNormalized frameDataXmlNormalizedIn
  by_cases h2 : x.type = DATA_FIXED
  · rw [if_pos h2, if_pos h2]; exact some_twin (fixedXml_twin hL _ _)
  rw [if_neg h2, if_neg h2]
  by_cases h3 : x.type = DATA_VARIABLE
  · rw [if_pos h3, if_pos h3]; exact some_twin (variableXmlNormalized_twin hL _ _ _)
  rw [if_neg h3, if_neg h3]
  exact .result _ _ .null

end Mbus
