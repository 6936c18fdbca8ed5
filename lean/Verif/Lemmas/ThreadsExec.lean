import Verif.Lemmas.ThreadsCalls
namespace Mbus
open Spec

/-! Alone, the sequences of accesses do what the functions of Model/Statics.lean do. -/

theorem exec_plain {b : SBuf} {t : List Byte} {s s' : Statics} {p : Ptr} (hs : Sized s) (h : sPlain b t s = .ok (p, s')) : (pPlain b t).exec s = .ok (p, s') := by
  unfold sPlain at h
  obtain ⟨s1, h1, h⟩ := bind_eq_ok.mp h
  injection h with h
  injection h with h2 h3
  subst h2 h3
  unfold pPlain
  rw [exec_then (exec_print hs h1)]
  rfl

theorem exec_prefix {e : Int} {s s' : Statics} {p : Ptr} (hs : Sized s) (h : sPrefix e s = .ok (p, s')) : (pPrefix e).exec s = .ok (p, s') := exec_plain hs h

theorem exec_format {b : SBuf} {x : Option (List Byte × Int × List Byte)} {t : List Byte} {s s' : Statics} {p : Ptr} (hs : Sized s) (h : sFormat b x t s = .ok (p, s')) :
    (pFormat b x t).exec s = .ok (p, s') := by
  cases x with
  | none => exact exec_plain hs h
  | some x =>
    obtain ⟨hd, e, tl⟩ := x
    unfold sFormat at h
    obtain ⟨⟨p1, s1⟩, h1, h⟩ := bind_eq_ok.mp h
    have e1 := exec_prefix hs h1
    have z1 := exec_sized _ hs e1
    dsimp only at h
    obtain ⟨u, h2, h⟩ := bind_eq_ok.mp h
    obtain ⟨s2, h3, h⟩ := bind_eq_ok.mp h
    injection h with h
    injection h with k1 k2
    subst k1 k2
    unfold pFormat
    dsimp only
    rw [exec_then e1, exec_then (exec_read z1 h2), exec_then (exec_print z1 h3)]
    rfl

theorem exec_vif {v : Byte} {s s' : Statics} {p : Ptr} (hs : Sized s) (h : sVif v s = .ok (p, s')) : (pVif v).exec s = .ok (p, s') := exec_format hs h

theorem exec_vib {r : Record} {s s' : Statics} {p : Ptr} (hs : Sized s) (h : sVib r s = .ok (p, s')) : (pVib r).exec s = .ok (p, s') := by
  unfold sVib at h
  obtain ⟨v0, h0, h⟩ := bind_eq_ok.mp h
  unfold pVib
  rw [exec_then (exec_lift h0 s)]
  split at h
  · rename_i c
    rw [if_pos c]
    split at h
    · rename_i c
      rw [if_pos c]
      exact h
    · rename_i c
      rw [if_neg c]
      exact exec_format hs h
  rename_i c
  rw [if_neg c]
  split at h
  · rename_i c
    rw [if_pos c]
    split at h
    · rename_i c
      rw [if_pos c]
      exact h
    · rename_i c
      rw [if_neg c]
      exact exec_format hs h
  rename_i c
  rw [if_neg c]
  split at h
  · rename_i c
    rw [if_pos c]
    obtain ⟨t, h1, h⟩ := bind_eq_ok.mp h
    rw [exec_then (exec_lift h1 s)]
    exact exec_plain hs h
  rename_i c
  rw [if_neg c]
  split at h
  · rename_i c
    rw [if_pos c]
    obtain ⟨⟨p1, s1⟩, h1, h⟩ := bind_eq_ok.mp h
    have e1 := exec_prefix hs h1
    have z1 := exec_sized _ hs e1
    dsimp only at h
    obtain ⟨u, h2, h⟩ := bind_eq_ok.mp h
    obtain ⟨w, h3, h⟩ := bind_eq_ok.mp h
    obtain ⟨s2, h4, h⟩ := bind_eq_ok.mp h
    injection h with h
    injection h with k1 k2
    subst k1 k2
    rw [exec_then e1, exec_then (exec_read z1 h2), exec_then (exec_lift h3 s1), exec_then (exec_print z1 h4)]
    rfl
  · rename_i c
    rw [if_neg c]
    exact exec_vif hs h

theorem exec_unit {r : Record} {s s' : Statics} {p : Ptr} (hs : Sized s) (h : sUnit r s = .ok (p, s')) : (pUnit r).exec s = .ok (p, s') := by
  unfold sUnit at h
  obtain ⟨⟨p1, s1⟩, h1, h⟩ := bind_eq_ok.mp h
  have e1 := exec_vib hs h1
  have z1 := exec_sized _ hs e1
  dsimp only at h
  obtain ⟨u, h2, h⟩ := bind_eq_ok.mp h
  obtain ⟨s2, h3, h⟩ := bind_eq_ok.mp h
  injection h with h
  injection h with k1 k2
  subst k1 k2
  unfold pUnit
  rw [exec_then e1, exec_then (exec_read z1 h2), exec_then (exec_print z1 h3)]
  rfl

theorem sDecode_inv {r : Record} {s s' : Statics} {p : Ptr} (h : sDecode r s = .ok (p, s')) : ∃ m, recordDecode (s .decode) r = .ok m ∧ p = .buf .decode ∧ s' = s.set .decode m := by
  obtain ⟨m, h1, h⟩ := bind_eq_ok.mp (show (recordDecode (s .decode) r >>= fun m => Except.ok (Ptr.buf .decode, s.set .decode m)) = .ok (p, s') from h)
  obtain ⟨k1, k2⟩ := Prod.mk.inj (Except.ok.inj h)
  exact ⟨m, h1, k1.symm, k2.symm⟩

theorem exec_decode {r : Record} {s s' : Statics} {p : Ptr} (hs : Sized s) (hn : r.dataLen ≤ 234) (hd : r.dif.toNat % 16 = 0xD → 1 ≤ r.dataLen)
    (h : sDecode r s = .ok (p, s')) : (pDecode r).exec s = .ok (p, s') := by
  obtain ⟨m, h1, hp, hs'⟩ := sDecode_inv h
  obtain ⟨b, h2, h3, _⟩ := recordDecode_leaves (s .decode) r (hs .decode) hn hd
  have hb : b = m := Except.ok.inj (h2.symm.trans h1)
  rw [hb] at h3
  have e1 : (pLoad .decode 768 0).exec s = .ok ((s .decode).drop 0, s) := exec_load .decode s hs 768 0 (by decide)
  have e2 : (pUpdate .decode 0 true (s .decode) m).exec s = .ok ((), s.set .decode m) :=
    exec_update .decode (s .decode) m true [] s hs (List.nil_append _).symm ((hs .decode).trans h3.symm)
  rw [List.drop_zero] at e1
  unfold pDecode
  generalize pLoad .decode 768 0 = q at e1 ⊢
  rw [exec_then e1, exec_then (exec_lift h1 s), exec_then e2, hp, hs']
  rfl

theorem exec_value {r : Record} {s s' : Statics} {p : Ptr} (hs : Sized s) (hn : r.dataLen ≤ 234) (hd : r.dif.toNat % 16 = 0xD → 1 ≤ r.dataLen)
    (h : sValue r s = .ok (p, s')) : (pValue r).exec s = .ok (p, s') := by
  unfold sValue at h
  have e0 : ∀ p1 s1, sDecode r s = .ok (p1, s1) → (pDecode r).exec s = .ok (p1, s1) := fun p1 s1 h1 => exec_decode hs hn hd h1
  unfold pValue
  generalize sDecode r s = x at h e0
  generalize pDecode r = q at e0 ⊢
  obtain ⟨⟨p1, s1⟩, h1, h⟩ := bind_eq_ok.mp h
  have e1 := e0 p1 s1 h1
  have z1 := exec_sized _ hs e1
  dsimp only at h
  obtain ⟨u, h2, h⟩ := bind_eq_ok.mp h
  obtain ⟨s2, h3, h⟩ := bind_eq_ok.mp h
  obtain ⟨k1, k2⟩ := Prod.mk.inj (Except.ok.inj h)
  rw [exec_then e1, exec_then (exec_read z1 h2), exec_then (exec_print z1 h3), ← k1, ← k2]
  rfl

theorem manufacturer_len {a b : Byte} {t : List Byte} (h : decodeManufacturer a b = .ok t) : t.length = 3 := by
  unfold decodeManufacturer at h
  obtain ⟨x, _, h⟩ := bind_eq_ok.mp h
  injection h with h
  subst h
  rfl

theorem exec_manufacturer {a b : Byte} {s s' : Statics} {p : Ptr} (hs : Sized s) (h : sManufacturer a b s = .ok (p, s')) : (pManufacturer a b).exec s = .ok (p, s') := by
  unfold sManufacturer at h
  obtain ⟨t, h1, h⟩ := bind_eq_ok.mp h
  injection h with h
  injection h with k1 k2
  subst k1 k2
  have hl := manufacturer_len h1
  have hc := hs .manufacturer
  obtain ⟨x0, x1, x2, x3, hx⟩ : ∃ x0 x1 x2 x3, s .manufacturer = [x0, x1, x2, x3] := by
    generalize s .manufacturer = m at hc
    match m, hc with
    | [x0, x1, x2, x3], _ => exact ⟨x0, x1, x2, x3, rfl⟩
  unfold pManufacturer
  rw [Prog.exec, if_pos (by decide), Prog.exec, if_pos (by decide), Prog.exec, if_pos (by decide), Prog.exec, if_pos (by decide)]
  rw [set_twice, set_same, set_same, hx]
  show (pLift (decodeManufacturer a b) >>= _).exec _ = _
  rw [exec_then (exec_lift h1 _)]
  have z : Sized (s.set .manufacturer [a, b, x2, x3]) := sized_set hs _ _ rfl
  have e := exec_bytes .manufacturer (t ++ [0]) 0 _ z (by rw [List.length_append, hl]; decide)
  show (pBytes .manufacturer 0 (t ++ [0]) >>= _).exec (s.set .manufacturer [a, b, x2, x3]) = _
  rw [exec_then e, set_twice, set_same]
  simp [hl, Prog.exec]

theorem exec_product {hd : VarHeader} {s s' : Statics} {p : Ptr} (hs : Sized s) (h : sProduct hd s = .ok (p, s')) : (pProduct hd).exec s = .ok (p, s') := by
  unfold sProduct at h
  obtain ⟨t, h1, h⟩ := bind_eq_ok.mp h
  injection h with h
  injection h with k1 k2
  subst k1 k2
  obtain ⟨t', h1', hl⟩ := productName_ok hd
  have : t' = t := Except.ok.inj (h1'.symm.trans h1)
  subst this
  have hc := hs .product
  have e1 := exec_bytes .product (List.replicate 128 0) 0 s hs (by rw [List.length_replicate]; decide)
  have z1 := exec_sized _ hs e1
  have e2 := exec_bytes .product (t' ++ [0]) 0 _ z1 (by rw [List.length_append]; show 0 + (t'.length + 1) ≤ 128; omega)
  unfold pProduct
  rw [exec_then (exec_lift h1 s), exec_then e1, exec_then e2, set_twice, set_same]
  show Except.ok (_, _) = _
  congr 3
  rw [List.take_zero, List.take_zero, List.nil_append, List.nil_append, List.drop_of_length_le (l := s .product) (by rw [hc, List.length_replicate]; decide), List.append_nil]
  rw [Nat.zero_add, List.drop_replicate, List.length_append, List.append_assoc]
  congr 1
  rw [List.length_singleton, show 128 - t'.length = (128 - (t'.length + 1)) + 1 by omega, List.replicate_succ]
  rfl

theorem exec_address {f : Frame} {s s' : Statics} {p : Ptr} (hs : Sized s) (h : sAddress f s = .ok (p, s')) : (pAddress f).exec s = .ok (p, s') := by
  unfold sAddress at h
  obtain ⟨t, h1, h⟩ := bind_eq_ok.mp h
  unfold pAddress
  rw [exec_then (exec_lift h1 s)]
  cases t with
  | none => exact h
  | some t => exact exec_plain hs h

/-! The XML functions: their own array is apart from those of the nested calls. -/

/-- A nested call and the reading of its text, while the caller's array holds `m`. -/
theorem exec_nested {x : SBuf} {B : List SBuf} (hx : x ∉ B) {q : Prog Ptr} (hq : q.Uses B (At B)) {s s' : Statics} {p : Ptr} (hs : Sized s) (h : q.exec s = .ok (p, s'))
    {t : List Byte} (ht : s'.read p = .ok t) (m : List Byte) {β : Type} (k : Ptr → List Byte → Prog β) :
    ((q >>= fun p => pRead p >>= fun t => k p t)).exec (s.set x m) = (k p t).exec (s'.set x m) := by
  obtain ⟨h1, _, h3⟩ := exec_frame hq hx m h
  rw [exec_then h1]
  obtain ⟨h4, _⟩ := exec_frame (uses_read h3) hx m (exec_read (exec_sized q hs h) ht)
  rw [exec_then h4]

theorem exec_header {e : List Byte} {hd : VarHeader} {s s' : Statics} {p : Ptr} (hs : Sized s) (h : sHeaderXml e hd s = .ok (p, s')) :
    (pHeaderXml e hd).exec s = .ok (p, s') := by
  unfold sHeaderXml at h
  dsimp only at h
  have hs0 : s = s.set .headerXml (⟨s .headerXml, 0⟩ : XBuf).mem := (statics_set_self s .headerXml).symm
  have l0 : (⟨s .headerXml, 0⟩ : XBuf).mem.length = SBuf.headerXml.cap := hs .headerXml
  unfold pHeaderXml
  obtain ⟨b1, g1, h⟩ := bind_eq_ok.mp h
  have l1 := (put_length g1).trans l0
  conv => lhs; rw [hs0]
  rw [exec_then (exec_put g1 l0 hs)]
  obtain ⟨id, g, h⟩ := bind_eq_ok.mp h
  rw [exec_then (exec_lift g _)]
  obtain ⟨b2, g2, h⟩ := bind_eq_ok.mp h
  have l2 := (put_length g2).trans l1
  rw [exec_then (exec_put g2 l1 hs)]
  obtain ⟨m0, g, h⟩ := bind_eq_ok.mp h
  rw [exec_then (exec_lift g _)]
  obtain ⟨m1, g, h⟩ := bind_eq_ok.mp h
  rw [exec_then (exec_lift g _)]
  obtain ⟨⟨p1, s1⟩, g, h⟩ := bind_eq_ok.mp h
  dsimp only at h
  obtain ⟨man, g', h⟩ := bind_eq_ok.mp h
  have e1 := exec_manufacturer hs g
  rw [exec_nested (x := .headerXml) (by decide) (uses_manufacturer _ _) hs e1 g']
  have z1 := exec_sized _ hs e1
  obtain ⟨b3, g3, h⟩ := bind_eq_ok.mp h
  have l3 := (put_length g3).trans l2
  rw [exec_then (exec_put g3 l2 z1)]
  obtain ⟨b4, g4, h⟩ := bind_eq_ok.mp h
  have l4 := (put_length g4).trans l3
  rw [exec_then (exec_put g4 l3 z1)]
  obtain ⟨⟨p2, s2⟩, g, h⟩ := bind_eq_ok.mp h
  dsimp only at h
  obtain ⟨t2, g', h⟩ := bind_eq_ok.mp h
  have e2 := exec_product z1 g
  rw [exec_nested (x := .headerXml) (by decide) (uses_product _) z1 e2 g']
  have z2 := exec_sized _ z1 e2
  obtain ⟨⟨e', t3⟩, g, h⟩ := bind_eq_ok.mp h
  dsimp only at h
  rw [exec_then (exec_lift g _)]
  obtain ⟨b5, g5, h⟩ := bind_eq_ok.mp h
  have l5 := (put_length g5).trans l4
  dsimp only
  rw [exec_then (exec_put g5 l4 z2)]
  obtain ⟨⟨p3, s3⟩, g, h⟩ := bind_eq_ok.mp h
  dsimp only at h
  obtain ⟨t4, g', h⟩ := bind_eq_ok.mp h
  have e3 := exec_plain z2 g
  rw [exec_nested (x := .headerXml) (by decide) (uses_plain _ _) z2 e3 g']
  have z3 := exec_sized _ z2 e3
  obtain ⟨⟨e'', t5⟩, g, h⟩ := bind_eq_ok.mp h
  dsimp only at h
  rw [exec_then (exec_lift g _)]
  obtain ⟨b6, g6, h⟩ := bind_eq_ok.mp h
  have l6 := (put_length g6).trans l5
  dsimp only
  rw [exec_then (exec_put g6 l5 z3)]
  obtain ⟨b7, g7, h⟩ := bind_eq_ok.mp h
  have l7 := (put_length g7).trans l6
  rw [exec_then (exec_put g7 l6 z3)]
  obtain ⟨b8, g8, h⟩ := bind_eq_ok.mp h
  have l8 := (put_length g8).trans l7
  rw [exec_then (exec_put g8 l7 z3)]
  obtain ⟨c1, g, h⟩ := bind_eq_ok.mp h
  rw [exec_then (exec_lift g _)]
  obtain ⟨c0, g, h⟩ := bind_eq_ok.mp h
  rw [exec_then (exec_lift g _)]
  obtain ⟨b9, g9, h⟩ := bind_eq_ok.mp h
  have l9 := (put_length g9).trans l8
  rw [exec_then (exec_put g9 l8 z3)]
  obtain ⟨b10, g10, h⟩ := bind_eq_ok.mp h
  rw [exec_then (exec_put g10 l9 z3)]
  exact h

theorem exec_open {b b' : XBuf} {c f : Int} (h : recordOpenXml b c f = .ok b') (h0 : b.len = 0) (hb : b.mem.length = SBuf.recordXml.cap) {s : Statics} (hs : Sized s) :
    (pRecordOpen c f).exec (s.set .recordXml b.mem) = .ok (b'.len, s.set .recordXml b'.mem) ∧ b'.mem.length = SBuf.recordXml.cap := by
  unfold recordOpenXml at h
  unfold pRecordOpen
  rw [← h0]
  split at h
  · rename_i hc
    rw [if_pos hc]
    exact ⟨exec_put h hb hs, (put_length h).trans hb⟩
  · rename_i hc
    rw [if_neg hc]
    exact ⟨exec_put h hb hs, (put_length h).trans hb⟩

theorem exec_tariff {b b' : XBuf} {r : Record} (h : tariffXml b r = .ok b') (hb : b.mem.length = SBuf.recordXml.cap) {s : Statics} (hs : Sized s) :
    (pTariff b.len r).exec (s.set .recordXml b.mem) = .ok (b'.len, s.set .recordXml b'.mem) ∧ b'.mem.length = SBuf.recordXml.cap := by
  unfold tariffXml at h
  unfold pTariff
  obtain ⟨ta, g, h⟩ := bind_eq_ok.mp h
  rw [exec_then (exec_lift g _)]
  split at h
  · rename_i hc
    rw [if_pos hc]
    obtain ⟨b1, g1, h⟩ := bind_eq_ok.mp h
    have l1 := (put_length g1).trans hb
    rw [exec_then (exec_put g1 hb hs)]
    obtain ⟨d, g, h⟩ := bind_eq_ok.mp h
    rw [exec_then (exec_lift g _)]
    exact ⟨exec_put h l1 hs, (put_length h).trans l1⟩
  · rename_i hc
    rw [if_neg hc]
    injection h with h
    subst h
    exact ⟨rfl, hb⟩

theorem exec_stamp {b b' : XBuf} {st : Option (List Byte)} (h : stampXml b st = .ok b') (hb : b.mem.length = SBuf.recordXml.cap) {s : Statics} (hs : Sized s) :
    (pStamp b.len st).exec (s.set .recordXml b.mem) = .ok (b'.len, s.set .recordXml b'.mem) ∧ b'.mem.length = SBuf.recordXml.cap := by
  cases st with
  | none =>
    injection h with h
    subst h
    exact ⟨rfl, hb⟩
  | some t => exact ⟨exec_put h hb hs, (put_length h).trans hb⟩

theorem exec_fields {e e' : List Byte} {b b' : XBuf} {r : Record} {s s' : Statics} (h : sRecordFields e b r s = .ok (b', e', s')) (hb : b.mem.length = SBuf.recordXml.cap)
    (hs : Sized s) :
    (pRecordFields e b.len r).exec (s.set .recordXml b.mem) = .ok ((b'.len, e'), s'.set .recordXml b'.mem) ∧ b'.mem.length = SBuf.recordXml.cap ∧ Sized s' := by
  unfold sRecordFields at h
  unfold pRecordFields
  split at h
  · rename_i hc
    rw [if_pos hc]
    obtain ⟨b1, g1, h⟩ := bind_eq_ok.mp h
    rw [exec_then (exec_put g1 hb hs)]
    injection h with h
    injection h with k1 h
    injection h with k2 k3
    subst k1 k2 k3
    exact ⟨rfl, (put_length g1).trans hb, hs⟩
  rename_i hc
  rw [if_neg hc]
  split at h
  · rename_i hc
    rw [if_pos hc]
    obtain ⟨b1, g1, h⟩ := bind_eq_ok.mp h
    rw [exec_then (exec_put g1 hb hs)]
    injection h with h
    injection h with k1 h
    injection h with k2 k3
    subst k1 k2 k3
    exact ⟨rfl, (put_length g1).trans hb, hs⟩
  rename_i hc
  rw [if_neg hc]
  obtain ⟨⟨p1, s1⟩, g, h⟩ := bind_eq_ok.mp h
  dsimp only at h
  obtain ⟨t1, g', h⟩ := bind_eq_ok.mp h
  have e1 := exec_plain hs g
  rw [exec_nested (x := .recordXml) (by decide) (uses_plain _ _) hs e1 g']
  have z1 := exec_sized _ hs e1
  obtain ⟨⟨e2, t2⟩, g, h⟩ := bind_eq_ok.mp h
  dsimp only at h
  rw [exec_then (exec_lift g _)]
  dsimp only
  obtain ⟨b1, g1, h⟩ := bind_eq_ok.mp h
  have l1 := (put_length g1).trans hb
  rw [exec_then (exec_put g1 hb z1)]
  obtain ⟨st, g, h⟩ := bind_eq_ok.mp h
  rw [exec_then (exec_lift g _)]
  obtain ⟨b2, g2, h⟩ := bind_eq_ok.mp h
  have l2 := (put_length g2).trans l1
  rw [exec_then (exec_put g2 l1 z1)]
  obtain ⟨b3, g3, h⟩ := bind_eq_ok.mp h
  obtain ⟨x3, l3⟩ := exec_tariff g3 l2 z1
  rw [exec_then x3]
  obtain ⟨⟨p2, s2⟩, g, h⟩ := bind_eq_ok.mp h
  dsimp only at h
  obtain ⟨t3, g', h⟩ := bind_eq_ok.mp h
  have e3 := exec_unit z1 g
  rw [exec_nested (x := .recordXml) (B := .unit :: vibWrites) (by decide) ((uses_unit _).mono (fun _ h => h) (at_mono (by decide))) z1 e3 g']
  have z2 := exec_sized _ z1 e3
  obtain ⟨⟨e4, t4⟩, g, h⟩ := bind_eq_ok.mp h
  dsimp only at h
  rw [exec_then (exec_lift g _)]
  dsimp only
  obtain ⟨b4, g4, h⟩ := bind_eq_ok.mp h
  rw [exec_then (exec_put g4 l3 z2)]
  injection h with h
  injection h with k1 h
  injection h with k2 k3
  subst k1 k2 k3
  exact ⟨rfl, (put_length g4).trans l3, z2⟩

theorem exec_record {e : List Byte} {r : Record} {stamp : Option (List Byte)} {c f : Int} {s s' : Statics} {p : Ptr} (hs : Sized s) (hn : r.dataLen ≤ 234)
    (hd : r.dif.toNat % 16 = 0xD → 1 ≤ r.dataLen) (h : sRecordXml e r stamp c f s = .ok (p, s')) : (pRecordXml e r stamp c f).exec s = .ok (p, s') := by
  unfold sRecordXml at h
  have hs0 : s = s.set .recordXml (⟨s .recordXml, 0⟩ : XBuf).mem := (statics_set_self s .recordXml).symm
  have l0 : (⟨s .recordXml, 0⟩ : XBuf).mem.length = SBuf.recordXml.cap := hs .recordXml
  unfold pRecordXml
  obtain ⟨b1, g1, h⟩ := bind_eq_ok.mp h
  obtain ⟨x1, l1⟩ := exec_open g1 rfl l0 hs
  conv => lhs; rw [hs0]
  rw [exec_then x1]
  obtain ⟨⟨b2, e2, s2⟩, g2, h⟩ := bind_eq_ok.mp h
  obtain ⟨x2, l2, z2⟩ := exec_fields g2 l1 hs
  rw [exec_then x2]
  dsimp only at h ⊢
  obtain ⟨⟨p3, s3⟩, g, h⟩ := bind_eq_ok.mp h
  dsimp only at h
  obtain ⟨t3, g', h⟩ := bind_eq_ok.mp h
  have e3 := exec_value z2 hn hd g
  rw [exec_nested (x := .recordXml) (B := [.value, .decode]) (by decide) ((uses_value _).mono (fun _ h => h) (at_mono (by decide))) z2 e3 g']
  have z3 := exec_sized _ z2 e3
  obtain ⟨⟨e4, t4⟩, g, h⟩ := bind_eq_ok.mp h
  dsimp only at h
  rw [exec_then (exec_lift g _)]
  dsimp only
  obtain ⟨b3, g3, h⟩ := bind_eq_ok.mp h
  have l3 := (put_length g3).trans l2
  rw [exec_then (exec_put g3 l2 z3)]
  obtain ⟨b4, g4, h⟩ := bind_eq_ok.mp h
  obtain ⟨x4, l4⟩ := exec_stamp g4 l3 z3
  rw [exec_then x4]
  obtain ⟨b5, g5, h⟩ := bind_eq_ok.mp h
  rw [exec_then (exec_put g5 l4 z3)]
  exact h

end Mbus
