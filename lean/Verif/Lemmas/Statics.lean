import Verif.Spec.Statics
import Verif.Lemmas.Text
import Verif.Lemmas.Units
import Verif.Lemmas.Value
import Verif.Lemmas.Xml
import Verif.Lemmas.XmlRecord
import Verif.Lemmas.XmlCalm
namespace Mbus
open Spec

theorem SBuf.cap_pos (b : SBuf) : 1 ≤ b.cap := by cases b <;> decide

theorem set_same (s : Statics) (b : SBuf) (m : List Byte) : s.set b m b = m := if_pos rfl
theorem set_other (s : Statics) {b c : SBuf} (m : List Byte) (h : c ≠ b) : s.set b m c = s c := if_neg h

theorem sized_set {s : Statics} (hs : Sized s) (b : SBuf) (m : List Byte) (hm : m.length = b.cap) : Sized (s.set b m) := by
  intro c
  by_cases h : c = b
  · subst h; rw [set_same, hm]
  · rw [set_other s m h, hs c]

/-- What a call does: it succeeds, keeps the sizes, changes only the buffers `W`, and the pointer it returns shows `t` and points to a constant or into `H`. -/
def Tells (x : C (Ptr × Statics)) (s : Statics) (W H : List SBuf) (t : List Byte) : Prop :=
  ∃ p s', x = .ok (p, s') ∧ Sized s' ∧ (∀ b, b ∉ W → s' b = s b) ∧ s'.read p = .ok t ∧ (∀ b, p = .buf b → b ∈ H)

theorem Tells.weaken {x : C (Ptr × Statics)} {s : Statics} {W W' H H' : List SBuf} {t : List Byte} (h : Tells x s W H t) (hW : ∀ b ∈ W, b ∈ W')
    (hH : ∀ b ∈ H, b ∈ H') : Tells x s W' H' t := by
  obtain ⟨p, s', h1, h2, h3, h4, h5⟩ := h
  exact ⟨p, s', h1, h2, fun b hb => h3 b (fun h => hb (hW b h)), h4, fun b hb => hH b (h5 b hb)⟩

theorem cstr_terminated (t rest : List Byte) (h : (0 : Byte) ∉ t) : cstr (t ++ [0] ++ rest) = .ok t := by
  rw [cstr_prefix t _ (List.prefix_append _ _), upToNul_eq t h]

theorem print_tells (s : Statics) (hs : Sized s) (b : SBuf) (args : List Ptr) (ha : ∀ c, Ptr.buf c ∈ args → c ≠ b) (t : List Byte) (ht : (0 : Byte) ∉ t) :
    ∃ m, s.print b args t = .ok (s.set b m) ∧ m.length = b.cap ∧ cstr m = .ok (snp b.cap t) := by
  have hp := b.cap_pos
  unfold Statics.print
  rw [if_neg]
  · unfold snprintfAt
    rw [if_neg (by omega)]
    dsimp only
    have hl : (t.take (b.cap - 1) ++ [(0 : Byte)]).length ≤ b.cap := by simp; omega
    rw [hs b, if_pos (by omega), ok_bind]
    refine ⟨_, rfl, ?_, ?_⟩
    · have := hs b
      simp only [List.length_append, List.length_take, List.length_drop, List.length_cons, List.length_nil] at hl ⊢
      omega
    · rw [List.take_zero, List.nil_append]
      exact cstr_terminated _ _ (fun h => ht (List.mem_of_mem_take h))
  · intro h
    rw [List.any_eq_true] at h
    obtain ⟨p, h1, h2⟩ := h
    cases p with
    | const t => cases h2
    | null => cases h2
    | buf c => exact ha c h1 (of_decide_eq_true h2)

theorem sPlain_tells (b : SBuf) (t : List Byte) (ht : (0 : Byte) ∉ t) (s : Statics) (hs : Sized s) : Tells (sPlain b t s) s [b] [b] (snp b.cap t) := by
  obtain ⟨m, h1, h2, h3⟩ := print_tells s hs b [] (by simp) t ht
  unfold sPlain
  rw [h1, ok_bind]
  refine ⟨_, _, rfl, sized_set hs b m h2, fun c hc => set_other s m (by simpa using hc), ?_, by simp⟩
  show cstr _ = _
  rw [set_same, h3]

theorem sPrefix_tells (e : Int) (s : Statics) (hs : Sized s) : Tells (sPrefix e s) s [.unitPrefix] [.unitPrefix] (snp 256 (unitPrefix e)) :=
  sPlain_tells .unitPrefix (unitPrefix e) (unitPrefix_nonul e) s hs

/-- A text formatted from a nested lookup. -/
theorem print_after {x : C (Ptr × Statics)} {s : Statics} {W H : List SBuf} {t : List Byte} (h : Tells x s W H t) (b : SBuf) (hb : b ∉ H) (u : List Byte)
    (hu : (0 : Byte) ∉ u) :
    ∃ p s1 m, x = .ok (p, s1) ∧ s1.read p = .ok t ∧ s1.print b [p] u = .ok (s1.set b m) ∧ Sized (s1.set b m) ∧
      (∀ c, c ∉ b :: W → s1.set b m c = s c) ∧ (s1.set b m).read (.buf b) = .ok (snp b.cap u) := by
  obtain ⟨p, s', h1, h2, h3, h4, h5⟩ := h
  obtain ⟨m, k1, k2, k3⟩ := print_tells s' h2 b [p] (by
    intro c hc hcb
    rw [List.mem_singleton] at hc
    exact hb (hcb ▸ h5 c hc.symm)) u hu
  refine ⟨p, s', m, h1, h4, k1, sized_set h2 b m k2, ?_, ?_⟩
  · intro c hc
    rw [List.mem_cons, not_or] at hc
    rw [set_other _ _ hc.1, h3 c hc.2]
  · show cstr _ = _
    rw [set_same, k3]

theorem sFormat_tells (b : SBuf) (hb : b ≠ .unitPrefix) (scaled : Option (List Byte × Int × List Byte)) (plain : List Byte) (hp : (0 : Byte) ∉ plain)
    (hk : ∀ h e t, scaled = some (h, e, t) → h ++ unitPrefix e ++ t = plain ∧ (unitPrefix e).length < 256) (s : Statics) (hs : Sized s) :
    Tells (sFormat b scaled plain s) s [b, .unitPrefix] [b] (snp b.cap plain) := by
  unfold sFormat
  cases scaled with
  | none => exact (sPlain_tells b plain hp s hs).weaken (by simp) (by simp)
  | some x =>
    obtain ⟨h, e, t⟩ := x
    obtain ⟨q1, q2⟩ := hk h e t rfl
    have q3 : snp 256 (unitPrefix e) = unitPrefix e := by
      unfold snp
      exact List.take_of_length_le (by omega)
    obtain ⟨p, s1, m, k1, k2, k3, k4, k5, k6⟩ := print_after (sPrefix_tells e s hs) b (by simpa using hb) plain hp
    dsimp only
    rw [k1, ok_bind]
    dsimp only
    rw [k2, ok_bind, q3, q1, k3, ok_bind]
    exact ⟨_, _, rfl, k4, k5, k6, by simp⟩

theorem scaled_ok : ∀ v : Byte,
    (∀ x, vifScaled v = some x → x.1 ++ unitPrefix x.2.1 ++ x.2.2 = vifUnitText v ∧ (unitPrefix x.2.1).length < 256) ∧
    (∀ x, fbScaled v = some x → x.1 ++ unitPrefix x.2.1 ++ x.2.2 = fbText v ∧ (unitPrefix x.2.1).length < 256) ∧
    (∀ x, fdScaled v = some x → x.1 ++ unitPrefix x.2.1 ++ x.2.2 = fdText v ∧ (unitPrefix x.2.1).length < 256) :=
  forall_byte (by decide +kernel)

theorem sVif_tells (v : Byte) (s : Statics) (hs : Sized s) : Tells (sVif v s) s [.vif, .unitPrefix] [.vif] (vifUnitLookup v) :=
  sFormat_tells .vif (by decide) _ _ (vifText_nonul v).1 (fun h e t hx => (scaled_ok v).1 _ hx) s hs

/-- the buffers `mbus_vib_unit_lookup` may write, and those it may return -/
def vibWrites : List SBuf := [.vif, .unitPrefix, .fb, .fd, .vib]
def vibHome : List SBuf := [.vif, .fb, .fd, .vib]

theorem sVib_tells (r : Record) (t : List Byte) (ht : vibUnitLookup r = .ok t) (s : Statics) (hs : Sized s) : Tells (sVib r s) s vibWrites vibHome t := by
  unfold vibUnitLookup at ht
  obtain ⟨t', h1, h2⟩ := bind_eq_ok.mp ht
  injection h2 with h2
  have h0 := vibUnitText_nonul r t' h1
  have hsn : snp 256 t' = t' := snp_eq (vibUnitText_lt r t' h1).1
  rw [hsn] at h2
  subst h2
  unfold vibUnitText at h1
  unfold sVib
  cases hv0 : r.vife.rd 0 with
  | error e => rw [hv0] at h1; cases h1
  | ok v0 =>
    rw [hv0, ok_bind] at h1
    rw [ok_bind]
    have hc : ∀ (p : List Byte), Tells (.ok (.const p, s)) s vibWrites vibHome p := fun p => ⟨_, _, rfl, hs, fun _ _ => rfl, rfl, by simp⟩
    by_cases c1 : r.vif = 0xFB
    · rw [if_pos c1] at h1 ⊢
      by_cases c2 : r.nvife = 0
      · rw [if_pos c2] at h1 ⊢
        injection h1 with h1; subst h1
        exact hc _
      · rw [if_neg c2] at h1 ⊢
        injection h1 with h1; subst h1
        exact (sFormat_tells .fb (by decide) _ _ (vifText_nonul v0).2.1 (fun h e t hx => (scaled_ok v0).2.1 _ hx) s hs).weaken (by decide) (by decide)
    rw [if_neg c1] at h1 ⊢
    by_cases c2 : r.vif = 0xFD
    · rw [if_pos c2] at h1 ⊢
      by_cases c2 : r.nvife = 0
      · rw [if_pos c2] at h1 ⊢
        injection h1 with h1; subst h1
        exact hc _
      · rw [if_neg c2] at h1 ⊢
        injection h1 with h1; subst h1
        exact (sFormat_tells .fd (by decide) _ _ (vifText_nonul v0).2.2 (fun h e t hx => (scaled_ok v0).2.2 _ hx) s hs).weaken (by decide) (by decide)
    rw [if_neg c2] at h1 ⊢
    by_cases c3 : r.vif = 0x7C
    · rw [if_pos c3] at h1 ⊢
      rw [h1, ok_bind]
      obtain ⟨p, s', k1, k2, k3, k4, k5⟩ := sPlain_tells .vib t' h0 s hs
      refine Tells.weaken (W := [.vib]) (H := [.vib]) ⟨p, s', k1, k2, k3, ?_, k5⟩ (by decide) (by decide)
      rw [k4]; exact congrArg _ hsn
    rw [if_neg c3] at h1 ⊢
    by_cases c4 : r.vif = 0xFC ∧ v0 &&& 0x78 = 0x70
    · rw [if_pos c4] at h1 ⊢
      obtain ⟨c, hc1, hc2⟩ := bind_eq_ok.mp h1
      injection hc2 with hc2
      subst hc2
      obtain ⟨p, s1, m, k1, k2, k3, k4, k5, k6⟩ := print_after (sPrefix_tells (((v0 &&& 0x07).toNat : Int) - 6) s hs) .vib (by decide) _ h0
      rw [k1, ok_bind]
      dsimp only
      have hq : snp 256 (unitPrefix (((v0 &&& 0x07).toNat : Int) - 6)) = unitPrefix (((v0 &&& 0x07).toNat : Int) - 6) := by
        have key : ∀ v : Byte, snp 256 (unitPrefix (((v &&& 0x07).toNat : Int) - 6)) = unitPrefix (((v &&& 0x07).toNat : Int) - 6) := forall_byte (by decide +kernel)
        exact key v0
      rw [k2, ok_bind, hc1, ok_bind, hq, k3, ok_bind]
      refine Tells.weaken (W := [.vib, .unitPrefix]) (H := [.vib]) ⟨_, _, rfl, k4, k5, ?_, by simp⟩ (by decide) (by decide)
      rw [k6]; exact congrArg _ hsn
    · rw [if_neg c4] at h1 ⊢
      injection h1 with h1; subst h1
      exact (sVif_tells r.vif s hs).weaken (by decide) (by decide)

theorem sUnit_tells (r : Record) (t : List Byte) (ht : recordUnit r = .ok t) (s : Statics) (hs : Sized s) :
    Tells (sUnit r s) s (.unit :: vibWrites) [.unit] t := by
  unfold recordUnit at ht
  obtain ⟨t', h1, h2⟩ := bind_eq_ok.mp ht
  injection h2 with h2
  subst h2
  have h0 : (0 : Byte) ∉ t' := by
    have h1' := h1
    unfold vibUnitLookup at h1'
    obtain ⟨w, w1, w2⟩ := bind_eq_ok.mp h1'
    injection w2 with w2
    subst w2
    exact snp_nonul _ _ (vibUnitText_nonul r w w1)
  obtain ⟨p, s1, m, k1, k2, k3, k4, k5, k6⟩ := print_after (sVib_tells r t' h1 s hs) .unit (by decide) t' h0
  unfold sUnit
  rw [k1, ok_bind]
  dsimp only
  rw [k2, ok_bind, k3, ok_bind]
  exact ⟨_, _, rfl, k4, k5, k6, by simp⟩

theorem sDecode_tells (r : Record) (hn : r.dataLen ≤ 234) (h1 : r.dif.toNat % 16 = 0xD → 1 ≤ r.dataLen) (s : Statics) (hs : Sized s) :
    Tells (sDecode r s) s [.decode] [.decode] (upToNul (shown r)) := by
  obtain ⟨b, h2, h3, h4⟩ := recordDecode_leaves (s .decode) r (hs .decode) hn h1
  unfold sDecode
  rw [h2, ok_bind]
  refine ⟨_, _, rfl, sized_set hs _ _ h3, fun c hc => set_other s b (by simpa using hc), ?_, by simp⟩
  show cstr _ = _
  rw [set_same]
  exact cstr_prefix _ _ h4

theorem sValue_tells (r : Record) (hn : r.dataLen ≤ 234) (h1 : r.dif.toNat % 16 = 0xD → 1 ≤ r.dataLen) (s : Statics) (hs : Sized s) :
    Tells (sValue r s) s [.value, .decode] [.value] (upToNul (shown r)) := by
  have hv : snp 768 (upToNul (shown r)) = upToNul (shown r) := by
    have h := recordValue_shown (List.replicate 768 0) r List.length_replicate hn h1
    obtain ⟨b, h2, h3, h4⟩ := recordDecode_leaves (List.replicate 768 0) r List.length_replicate hn h1
    unfold recordValue at h
    rw [h2, ok_bind, cstr_prefix _ _ h4, ok_bind] at h
    injection h
  obtain ⟨p, s1, m, k1, k2, k3, k4, k5, k6⟩ := print_after (sDecode_tells r hn h1 s hs) .value (by decide) _ (upToNul_nonul _)
  unfold sValue
  rw [k1, ok_bind]
  dsimp only
  rw [k2, ok_bind, k3, ok_bind]
  exact ⟨_, _, rfl, k4, k5, k6.trans (congrArg _ hv), by simp⟩

theorem sManufacturer_tells (b1 b2 : Byte) (t : List Byte) (ht : decodeManufacturer b1 b2 = .ok t) (hl : t.length = 3) (h0 : (0 : Byte) ∉ t) (s : Statics) (hs : Sized s) :
    Tells (sManufacturer b1 b2 s) s [.manufacturer] [.manufacturer] t := by
  unfold sManufacturer
  rw [ht, ok_bind]
  refine ⟨_, _, rfl, sized_set hs _ _ (by simp [hl, SBuf.cap]), fun c hc => set_other s _ (by simpa using hc), ?_, by simp⟩
  show cstr _ = _
  rw [set_same]
  have := cstr_terminated t [] h0
  rwa [List.append_nil] at this

theorem sProduct_tells (h : VarHeader) (t : List Byte) (ht : productName h = .ok t) (hl : t.length < 128) (h0 : (0 : Byte) ∉ t) (s : Statics) (hs : Sized s) :
    Tells (sProduct h s) s [.product] [.product] t := by
  unfold sProduct
  rw [ht, ok_bind]
  refine ⟨_, _, rfl, sized_set hs _ _ (by simp [SBuf.cap]; omega), fun c hc => set_other s _ (by simpa using hc), ?_, by simp⟩
  show cstr _ = _
  rw [set_same]
  obtain ⟨k, hk⟩ : ∃ k, 128 - t.length = k + 1 := ⟨127 - t.length, by omega⟩
  rw [hk, List.replicate_succ, ← List.singleton_append, ← List.append_assoc]
  exact cstr_terminated t _ h0

end Mbus
