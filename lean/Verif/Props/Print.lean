import Verif.Model.Print
import Verif.Spec.Print
import Verif.Props.Link
import Verif.Props.Record
import Verif.Props.Labels
import Verif.Lemmas.XmlForm
/-
C96, C97: the dumps on standard output.
-/
namespace Mbus
open Spec

theorem fmtHex2_hex2 : ∀ b : Byte, fmtHex2 b = hex2 b.toNat := forall_byte (by decide +kernel)

/-- the loop that prints one byte after the other -/
theorem forN_append (l : List Byte) (g : Nat → Byte → List Byte) : ∀ (n i : Nat) (t : List Byte), i + n ≤ l.length →
    forN n i t (fun j t => (rd l j) >>= fun x => .ok (t ++ g j x)) = .ok (t ++ (((l.drop i).take n).zipIdx i).flatMap fun q => g q.2 q.1)
  | 0, i, t, _ => by simp [forN]
  | n + 1, i, t, h => by
    unfold forN
    show ((rd l i >>= fun x => Except.ok (t ++ g i x)) >>= _) = _
    rw [rd_ok (by omega), ok_bind, ok_bind, forN_append l g n (i + 1) _ (by omega)]
    have : l.drop i = l[i]'(by omega) :: l.drop (i + 1) := (List.drop_eq_getElem_cons (by omega))
    rw [this, List.take_succ_cons, List.zipIdx_cons, List.flatMap_cons, List.append_assoc]

theorem zipIdx_flatMap {α β : Type} (g : α → List β) : ∀ (l : List α) (i : Nat), ((l.zipIdx i).flatMap fun q => g q.1) = l.flatMap g
  | [], _ => rfl
  | a :: l, i => by simp [List.zipIdx_cons, zipIdx_flatMap g l (i + 1)]

theorem hexBytes_eq (l : List Byte) (n : Nat) (h : n ≤ l.length) : hexBytes l n = .ok (hexList (l.take n)) := by
  unfold hexBytes
  have := forN_append l (fun _ x => hex2 x.toNat ++ [32]) n 0 [] (by omega)
  simp only [zipIdx_flatMap (fun x : Byte => hex2 x.toNat ++ [32]), List.drop_zero, List.nil_append] at this
  rw [← hexList] at this
  rw [← this]
  congr 1
  funext j t
  congr 1
  funext x
  rw [fmtHex2_hex2, List.append_assoc]

/-! ### C96 -/

theorem carries_fixed (f : Frame) (t : Spec.Telegram) (h : Carries f t) : Carries (fixed f) t := by
  cases t <;> exact h

theorem kind_type (f : Frame) (t : Spec.Telegram) (h : Carries f t) : (f.type : Int) = t.kind := by
  cases t with
  | ack => exact h
  | short c a => exact h.1
  | data c a ci p => exact h.1

/-- C96 (telegrams of at most 256 bytes): the dump of a list of frames shows, for each frame, the type, the number of bytes and exactly
the bytes of its telegram on the wire; 0 is returned and the frames stand for the same telegrams afterwards.  Missing: long telegrams. -/
theorem C96_frame_print_partial (uninit : Buf 256) (fs : List Frame) (ts : List Spec.Telegram) (hne : fs ≠ [])
    (h : Pointwise (fun f t => t.Legal ∧ Carries f t ∧ StartStop f t ∧ t.wire.length ≤ 256) fs ts) :
    ∃ fs', framePrint uninit fs = .ok (0, unlines (ts.map telegramLine), fs') ∧ Pointwise Carries fs' ts := by
  have key : ∀ (fs : List Frame) (ts : List Spec.Telegram) (buf : List Byte), buf.length = 256 →
      Pointwise (fun f t => t.Legal ∧ Carries f t ∧ StartStop f t ∧ t.wire.length ≤ 256) fs ts →
      ∃ fs', framePrintLoop buf fs = .ok (0, unlines (ts.map telegramLine), fs') ∧ Pointwise Carries fs' ts := by
    intro fs ts buf hb h
    induction h generalizing buf with
    | nil => exact ⟨[], rfl, .nil⟩
    | @cons f t fs ts h1 h2 ih =>
      obtain ⟨hl, hc, hs, hlen⟩ := h1
      obtain ⟨a, b, c, d⟩ := packBytes_wire f t hl hc (hs_of f t hc hs)
      obtain ⟨fs', e1, e2⟩ := ih (t.wire ++ buf.drop t.wire.length) (by simp; omega)
      refine ⟨fixed f :: fs', ?_, .cons (carries_fixed f t hc) e2⟩
      unfold framePrintLoop
      rw [framePack_eq f buf 256 (by omega) c d, if_neg (by omega), a, b, ok_bind]
      have hpos : 0 < t.wire.length := by cases t <;> simp [Spec.Telegram.wire]
      simp only
      rw [if_neg (by omega), hexBytes_eq _ _ (by simp), ok_bind, e1, ok_bind]
      have ht : (fixed f).type = t.kind := kind_type _ _ (carries_fixed f t hc)
      simp [unlines, telegramLine, dumpLine, ht]
  cases fs with
  | nil => exact absurd rfl hne
  | cons f fs => exact key _ _ _ (by simp) h

/-- C96 is false for telegrams of more than 256 bytes: the buffer in `mbus_frame_print` is too small, the error of `mbus_frame_pack` is not
noticed, and 0 is returned with a dump of no bytes at all that claims a length of -4. -/
theorem C96_long_violation (uninit : Buf 256) (f : Frame) (t : Spec.Telegram) (hl : t.Legal) (hc : Carries f t) (hs : StartStop f t)
    (hlen : 256 < t.wire.length) :
    ∃ g, framePrint uninit [f] = .ok (0, unlines [dumpLine t.kind (-4) []], [g]) ∧ dumpLine t.kind (-4) [] ≠ telegramLine t := by
  obtain ⟨a, b, c, d⟩ := packBytes_wire f t hl hc (hs_of f t hc hs)
  refine ⟨fixed f, ?_, ?_⟩
  · show framePrintLoop uninit.bytes [f] = _
    unfold framePrintLoop
    rw [framePack_eq f _ 256 (by simp) c d, if_pos (by omega), ok_bind]
    simp only
    rw [if_neg (by decide), hexBytes_eq _ _ (by simp), ok_bind]
    unfold framePrintLoop
    rw [ok_bind]
    have ht : (fixed f).type = t.kind := kind_type _ _ (carries_fixed f t hc)
    simp [unlines, dumpLine, ht]
  · intro h
    have := congrArg List.length h
    have e : (hexList t.wire).length = 3 * t.wire.length := by
      have : ∀ l : List Byte, (hexList l).length = 3 * l.length := by
        intro l
        induction l with
        | nil => rfl
        | cons x l ih => 
          show (hex2 x.toNat ++ [32] ++ hexList l).length = _
          rw [List.length_append, ih]
          simp [hex2]
          omega
      exact this _
    simp only [telegramLine, dumpLine, List.length_append, e] at this
    have h2 : (fmtInt (-4)).length = 2 := by decide +kernel
    have h3 : (hexList []).length = 0 := rfl
    omega

/-- C96 is false for frames that cannot be packed at all (no telegram type): `mbus_frame_pack` reports this with -3, `mbus_frame_print`
expects -1 and returns 0. -/
theorem C96_type_violation (uninit : Buf 256) (f : Frame) (hty : f.type ≠ 1 ∧ f.type ≠ 2 ∧ f.type ≠ 3 ∧ f.type ≠ 4) :
    ∃ g, framePrint uninit [f] = .ok (0, unlines [dumpLine f.type (-3) []], [g]) := by
  refine ⟨{ f with length1 := calcLength f, length2 := calcLength f }, ?_⟩
  show framePrintLoop uninit.bytes [f] = _
  have e : framePack f uninit.bytes 256 = .ok (-3, { f with length1 := calcLength f, length2 := calcLength f }, uninit.bytes) := by
    unfold framePack frameCalcLength
    dsimp only
    rw [if_neg (by decide)]
    unfold frameCalcChecksum
    rw [if_neg (by simpa [TYPE_ACK, TYPE_SHORT, TYPE_CONTROL, TYPE_LONG] using hty), ok_bind]
    rfl
  unfold framePrintLoop
  rw [e, ok_bind]
  simp only
  rw [if_neg (by decide), hexBytes_eq _ _ (by simp), ok_bind]
  unfold framePrintLoop
  rw [ok_bind]
  simp [unlines, dumpLine]

example : (Frame.zero).type ≠ 1 ∧ (Frame.zero).type ≠ 2 ∧ (Frame.zero).type ≠ 3 ∧ (Frame.zero).type ≠ 4 := by decide

/-- no frame: -1, nothing is printed -/
theorem C96_none (uninit : Buf 256) : framePrint uninit [] = .ok (-1, [], []) := rfl

/-- a user data response of 252 bytes of payload -/
example : ∃ f : Frame, Carries f (.data 0x08 1 0x72 (List.replicate 252 0)) ∧ StartStop f (.data 0x08 1 0x72 (List.replicate 252 0)) ∧
    256 < (Spec.Telegram.data 0x08 1 0x72 (List.replicate 252 0)).wire.length :=
  ⟨{ Frame.zero with type := 4, control := 0x08, address := 1, ci := 0x72, dataSize := 252, start1 := 0x68, start2 := 0x68, stop := 0x16 },
    by decide +kernel, ⟨rfl, rfl, rfl⟩, by decide +kernel⟩

/-! ### C97 -/

theorem dif_parts : ∀ d : Byte,
    yesNo (d &&& 0x80 != 0) = extension d ∧ fmtInt ((d &&& 0x40) >>> 6).toNat = decDigits (d.toNat / 64 % 2) ∧
    (if d &&& 0x30 ≠ 0 then cs! "Value during error state" else cs! "Instantaneous value") = dumpFunctions.getD (d.toNat / 16 % 4) [] ∧
    fmtHex2 (d &&& 0x0F) = hex2 (d.toNat % 16) ∧ fmtHex2 (d &&& 0x7F) = hex2 (d.toNat % 128) ∧
    fmtInt ((d &&& 0x30) >>> 4).toNat = decDigits (d.toNat / 16 % 4) := forall_byte (by decide +kernel)

theorem unlines_append (a b : List (List Byte)) : unlines (a ++ b) = unlines a ++ unlines b := by simp [unlines]

theorem difePrint_eq (j : Nat) (b : Byte) : difePrint j b = unlines (difeLines j b) := by
  obtain ⟨h1, h2, _, h4, _, h6⟩ := dif_parts b
  unfold difePrint
  rw [h1, h2, h4, h6, fmtHex2_hex2]
  simp [unlines, difeLines]

theorem vifePrint_eq (j : Nat) (b : Byte) : vifePrint j b = unlines (vifeLines j b) := by
  obtain ⟨h1, _, _, _, h5, _⟩ := dif_parts b
  unfold vifePrint
  rw [h1, h5, fmtHex2_hex2]
  simp [unlines, vifeLines]

theorem unlines_flatMap {α : Type} (g : α → List (List Byte)) (l : List α) : unlines (l.flatMap g) = l.flatMap fun x => unlines (g x) := by
  induction l with
  | nil => rfl
  | cons x l ih => rw [List.flatMap_cons, unlines_append, ih, List.flatMap_cons]

theorem recordPrint_eq (i : Nat) (r : Record) (x : Rec) (hx : x.Legal) (h : Delivers r x) :
    recordPrint i r = .ok (unlines (recLines dumpFunctions i x)) := by
  obtain ⟨h1, h2, h3, h4, h5, h6⟩ := dif_parts r.dif
  have hd : cs! "Record ID         = " ++ fmtInt i ++ cs! "\n" ++
    cs! "DIF               = " ++ fmtHex2 r.dif ++ cs! "\n" ++
    cs! "DIF.Extension     = " ++ yesNo (r.dif &&& 0x80 != 0) ++ cs! "\n" ++
    cs! "DIF.StorageNumber = " ++ fmtInt ((r.dif &&& 0x40) >>> 6).toNat ++ cs! "\n" ++
    cs! "DIF.Function      = " ++ (if r.dif &&& 0x30 ≠ 0 then cs! "Value during error state" else cs! "Instantaneous value") ++ cs! "\n" ++
    cs! "DIF.Data          = " ++ fmtHex2 (r.dif &&& 0x0F) ++ cs! "\n" = unlines (difLines dumpFunctions i r.dif) := by
    rw [h1, h2, h3, h4, fmtHex2_hex2, fmtInt_nat]
    simp [unlines, difLines]
  unfold recordPrint
  rw [hd]
  cases x with
  | special dif data =>
    obtain ⟨g1, g2, g3, g4, g5⟩ := h
    have hk : r.dif = 0x0F ∨ r.dif = 0x1F := by rw [g1]; exact hx.1
    rw [if_pos hk, hexBytes_eq _ _ (by rw [g4, ← g5]; simp; omega), ok_bind, g5, g4, g1]
    simp only [recLines, unlines_append]
    by_cases e : dif = 0x1F
    · rw [if_pos e, if_pos e]; simp [unlines]
    · rw [if_neg e, if_neg e]; simp [unlines]
  | value dif difes vif text vifes data =>
    obtain ⟨g1, g2, g3, g4, g5, g6, _, g7, g8⟩ := h
    obtain ⟨l1, l2, _⟩ := hx
    have hk : ¬ (r.dif = 0x0F ∨ r.dif = 0x1F) := by rw [g1]; exact fun h => h.elim l1 l2
    have d1 : r.ndife ≤ r.dife.bytes.length := by rw [g2, ← g3]; simp; omega
    have d2 : r.nvife ≤ r.vife.bytes.length := by rw [g5, ← g6]; simp; omega
    have f1 := fun t => forN_append r.dife.bytes (fun j x => difePrint j x) r.ndife 0 t (by omega)
    have f2 := fun t => forN_append r.vife.bytes (fun j x => vifePrint j x) r.nvife 0 t (by omega)
    simp only [List.drop_zero, g3, difePrint_eq, ← unlines_flatMap] at f1
    simp only [List.drop_zero, g6, vifePrint_eq, ← unlines_flatMap] at f2
    obtain ⟨v1, _, _, _, v5, _⟩ := dif_parts r.vif
    rw [if_neg hk]
    simp only [Buf.rd, difePrint_eq, vifePrint_eq]
    rw [f1, ok_bind, f2, ok_bind, v1, v5, fmtHex2_hex2, g4, g7, g1]
    simp [recLines, unlines]

theorem recordsPrint_eq {rs : List Record} {xs : List Rec} (h : Pointwise Delivers rs xs) (hl : ∀ x ∈ xs, x.Legal) (i : Nat) :
    recordsPrint i rs = .ok (unlines (recsLines dumpFunctions i xs)) := by
  induction h generalizing i with
  | nil => rfl
  | cons h1 h2 ih =>
    unfold recordsPrint
    rw [recordPrint_eq i _ _ (hl _ (by simp)) h1, ok_bind, ih (fun x hx => hl x (by simp [hx])), ok_bind]
    simp only [recsLines, unlines_append]

theorem len2 {α : Type} (l : List α) (h : l.length = 2) : ∃ a b, l = [a, b] := by
  match l, h with
  | [a, b], _ => exact ⟨a, b, rfl⟩

theorem len4 {α : Type} (l : List α) (h : l.length = 4) : ∃ a b c d, l = [a, b, c, d] := by
  match l, h with
  | [a, b, c, d], _ => exact ⟨a, b, c, d, rfl⟩

theorem headerPrint_eq (h : VarHeader) (p : List Byte) (hh : HeaderIs h p) : headerPrint h = .ok (unlines (headerLines p)) := by
  obtain ⟨hid, hlt⟩ := bcdDecodeHex4 h.idBcd
  have hm := flag_eq h.manufacturer
  obtain ⟨⟨ib, hib⟩, ⟨mb, hmb⟩, ver, med, acc, st, ⟨sb, hsb⟩⟩ := h
  obtain ⟨i0, i1, i2, i3, rfl⟩ := len4 ib hib
  obtain ⟨m0, m1, rfl⟩ := len2 mb hmb
  obtain ⟨s0, s1, rfl⟩ := len2 sb hsb
  unfold HeaderIs at hh
  simp only [List.cons_append, List.nil_append] at hh
  have hp : ∀ i, i < 12 → p.getD i 0 = [i0, i1, i2, i3, m0, m1, ver, med, acc, st, s0, s1].getD i 0 := by
    intro i hi
    rw [hh]
    simp [hi]
  unfold headerPrint
  rw [hid, ok_bind, toNat_mod64 _ hlt]
  replace hm : decodeManufacturer m0 m1 = .ok (flagLetters (leNat [m0, m1])) := hm
  show (decodeManufacturer m0 m1 >>= _) = _
  rw [hm, ok_bind]
  simp only [headerLines, hp _ (show 0 < 12 by decide), hp _ (show 1 < 12 by decide), hp _ (show 2 < 12 by decide), hp _ (show 3 < 12 by decide),
    hp _ (show 4 < 12 by decide), hp _ (show 5 < 12 by decide), hp _ (show 6 < 12 by decide), hp _ (show 7 < 12 by decide),
    hp _ (show 8 < 12 by decide), hp _ (show 9 < 12 by decide), hp _ (show 10 < 12 by decide), hp _ (show 11 < 12 by decide)]
  show Except.ok _ = _
  have hmed : mediumLabel med = mediumLookup med := (C82_medium med).symm
  have e : cs! ")\n" = cs! ")" ++ [10] := rfl
  simp only [List.getD_cons_zero, List.getD_cons_succ, ← fmtHex2_hex2, hmed, e]
  simp only [unlines, List.map_cons, List.map_nil, List.flatMap_cons, List.flatMap_nil, List.append_assoc, List.append_nil]

/-- C97: after a successful parse, the dump shows the 12 header bytes field by field, then every record of the payload in order and
numbered from 0: the DIF, its parts, the number of data bytes, the DIFEs, the VIF and the VIFEs, or the bytes of manufacturer specific data;
only the names of the functions are those of `dumpFunctions`.  (The value returned is always -1.) -/
theorem C97_variable_print (f : Frame) (v v' : VarData) (hs : f.dataSize ≤ 252) (h : variableParse f v = .ok (0, v')) :
    ∃ rs, Tiles ((payload f).drop 12) rs ∧
      variablePrint v' = .ok (-1, unlines (headerLines (payload f)) ++ unlines (recsLines dumpFunctions 0 rs)) := by
  obtain ⟨_, hh, rs, ht, hr⟩ := C29_tiles f v v' hs h
  refine ⟨rs, ht, ?_⟩
  unfold variablePrint
  rw [headerPrint_eq _ _ hh, ok_bind, recordsPrint_eq hr (tiles_legal ht), ok_bind]

theorem recLines_plain (i : Nat) (x : Rec) (h : x.Plain) : recLines dumpFunctions i x = recLines functions i x := by
  have e : ∀ d : Byte, (d.toNat / 16 % 4 = 0 ∨ d.toNat / 16 % 4 = 3) → difLines dumpFunctions i d = difLines functions i d := by
    intro d hd
    rcases hd with hd | hd <;> unfold difLines <;> rw [hd] <;> rfl
  cases x with
  | special dif data => simp only [recLines]; rw [e dif h]
  | value dif difes vif text vifes data => simp only [recLines]; rw [e dif h]

/-- C97 (instantaneous values and values during error states): the dump is the one with the names of the functions as they are defined.
Missing: maximum and minimum values. -/
theorem C97_functions_partial (f : Frame) (v v' : VarData) (hs : f.dataSize ≤ 252) (h : variableParse f v = .ok (0, v')) :
    ∃ rs, Tiles ((payload f).drop 12) rs ∧ ((∀ r ∈ rs, r.Plain) →
      variablePrint v' = .ok (-1, unlines (headerLines (payload f)) ++ unlines (recsLines functions 0 rs))) := by
  obtain ⟨rs, ht, hp⟩ := C97_variable_print f v v' hs h
  refine ⟨rs, ht, fun hpl => ?_⟩
  have key : ∀ (rs : List Rec) (i : Nat), (∀ r ∈ rs, r.Plain) → recsLines dumpFunctions i rs = recsLines functions i rs := by
    intro rs
    induction rs with
    | nil => intros; rfl
    | cons r rs ih => intro i h; simp only [recsLines]; rw [recLines_plain i r (h r (by simp)), ih _ (fun x hx => h x (by simp [hx]))]
  rw [hp, key rs 0 hpl]

/-- C97 is false for the names of the functions: a maximum value (DIF 0x14), a minimum value (DIF 0x24) and manufacturer specific data with
more records following (DIF 0x1F) are all dumped as "Value during error state". -/
theorem C97_function_violation :
    ∀ dif ∈ [(0x14 : Byte), 0x24, 0x1F], ∃ r : Record, r.dif = dif ∧ ∃ t, recordPrint 0 r = .ok t ∧
      (cs! "DIF.Function      = Value during error state\n") <:+: t ∧ functions.getD (dif.toNat / 16 % 4) [] ≠ cs! "Value during error state" := by
  intro dif hd
  have h : ∀ dif ∈ [(0x14 : Byte), 0x24, 0x1F], ∃ t, recordPrint 0 { Record.new with dif := dif } = .ok t ∧
      (cs! "DIF.Function      = Value during error state\n") <:+: t ∧ functions.getD (dif.toNat / 16 % 4) [] ≠ cs! "Value during error state" := by
    intro d hd
    simp only [List.mem_cons, List.not_mem_nil, or_false] at hd
    rcases hd with rfl | rfl | rfl
    · exact ⟨_, rfl, by decide +kernel, by decide +kernel⟩
    · exact ⟨_, rfl, by decide +kernel, by decide +kernel⟩
    · exact ⟨_, rfl, by decide +kernel, by decide +kernel⟩
  exact ⟨{ Record.new with dif := dif }, rfl, h dif hd⟩

theorem fixedUnit_dump (b : Byte) : fixedUnit b.toNat = dumpUnits (b.toNat % 64) := by
  have key : ∀ b : Byte, fixedUnit b.toNat = dumpUnits (b.toNat % 64) := forall_byte (by decide +kernel)
  exact key b

/-- C97: fixed-length data: every field of the 16 bytes, with its label; only the names of the units are those of `dumpUnits`. -/
theorem C97_fixed_print (f : Frame) (x y : FixedData) (h : fixedParse f x = .ok (0, y)) :
    fixedPrint y = .ok (-1, unlines (fixedLines dumpUnits (payload f))) := by
  have h16 : f.dataSize = 16 := by
    rcases Classical.em (f.dataSize = 16) with e | e
    · exact e
    · rw [(C34_fixed_iff f x).2 e] at h
      simp at h
  obtain ⟨y', h1, h2⟩ := (C34_fixed_iff f x).1 h16
  rw [h] at h1
  cases h1
  obtain ⟨hid, hlt⟩ := bcdDecodeHex4 y.idBcd
  obtain ⟨c1, _⟩ := counter_runs y.status y.cnt1Val
  obtain ⟨c2, _⟩ := counter_runs y.status y.cnt2Val
  have hm := C82_fixed_medium y
  have hf := (C82_function Record.new y.status.toNat).2
  have u1 := fixedUnit_dump y.cnt1Type
  have u2 := fixedUnit_dump y.cnt2Type
  unfold fixedPrint
  rw [hid, ok_bind, toNat_mod64 _ hlt, c1, ok_bind, c2, ok_bind, hf, u1, u2]
  obtain ⟨⟨ib, hib⟩, tx, st, t1, t2, ⟨v1, hv1⟩, ⟨v2, hv2⟩⟩ := y
  obtain ⟨i0, i1, i2, i3, rfl⟩ := len4 ib hib
  obtain ⟨a0, a1, a2, a3, rfl⟩ := len4 v1 hv1
  obtain ⟨b0, b1, b2, b3, rfl⟩ := len4 v2 hv2
  simp only [List.cons_append, List.nil_append] at h2
  rw [← h2]
  generalize fixedMedium _ = med at *
  have e : fixedMedia.getD (4 * (t2.toNat / 64) + t1.toNat / 64) [] = med := by
    rw [List.getD_eq_getElem?_getD]
    exact congrArg (·.getD []) hm.symm
  simp only [fixedLines, List.getD_cons_zero, List.getD_cons_succ, ← fmtHex2_hex2, e, unlines, List.map_cons, List.map_nil, List.flatMap_cons,
    List.flatMap_nil, List.append_assoc, List.append_nil]
  have e2 : ((st.toNat : Int) / 64 % 2 = 1) ↔ st.toNat / 64 % 2 = 1 := by omega
  simp only [e2]

/-- C97: after a successful parse of the data of a frame, `mbus_frame_data_print` dumps the error code (0 if there is none), the fixed-length
or the variable-length data. -/
theorem C97_frame_data_print (f : Frame) (x x' : FrameData) (hs : f.dataSize ≤ 252) (h : frameDataParse f x = .ok (0, x')) :
    (f.ci = 0x70 → frameDataPrint x' = .ok (-1, cs! "mbus_data_error_print: Error = " ++ decDigits ((payload f).headD 0).toNat ++ cs! "\n")) ∧
    (f.ci = 0x73 → frameDataPrint x' = .ok (-1, unlines (fixedLines dumpUnits (payload f)))) ∧
    (f.ci = 0x72 → ∃ rs, Tiles ((payload f).drop 12) rs ∧
      frameDataPrint x' = .ok (-1, unlines (headerLines (payload f)) ++ unlines (recsLines dumpFunctions 0 rs))) := by
  have hd : f.control &&& 0x40 = 0 := by
    rcases Classical.em (f.control &&& 0x40 = 0) with e | e
    · exact e
    · rw [C35_refuse f x (.inl e)] at h
      simp at h
  refine ⟨fun hci => ?_, fun hci => ?_, fun hci => ?_⟩
  · rw [C35_error f x hd hci] at h
    cases h
    show Except.ok (errorPrint _) = _
    unfold errorPrint
    simp only
    rw [fmtInt_nat]
  · rw [(frameDataParse_cases f x).2.1 hd hci] at h
    split at h
    · simp at h
    · obtain ⟨⟨c, y⟩, h1, h2⟩ := bind_eq_ok.mp h
      cases h2
      exact C97_fixed_print f x.fix y h1
  · rw [(frameDataParse_cases f x).2.2 hd hci] at h
    split at h
    · simp at h
    · obtain ⟨⟨c, y⟩, h1, h2⟩ := bind_eq_ok.mp h
      cases h2
      exact C97_variable_print f x.var y hs h1

/-- a response with one record: DIF 0x84, DIFE 0x10, VIF 0x13, four bytes -/
example : ∃ v', variableParse (rsp 0x72 (hdr ++ [0x84, 0x10, 0x13, 1, 2, 3, 4])) VarData.zero = .ok (0, v') ∧
    Tiles [0x84, 0x10, 0x13, 1, 2, 3, 4] [.value 0x84 [0x10] 0x13 [] [] [1, 2, 3, 4]] ∧
    recsLines functions 0 [.value 0x84 [0x10] 0x13 [] [] [1, 2, 3, 4]] =
      [cs! "Record ID         = 0", cs! "DIF               = 84", cs! "DIF.Extension     = Yes", cs! "DIF.StorageNumber = 0",
       cs! "DIF.Function      = Instantaneous value", cs! "DIF.Data          = 04", cs! "DATA LENGTH = 4",
       cs! "DIFE[0]               = 10", cs! "DIFE[0].Extension     = No", cs! "DIFE[0].Device        = 0", cs! "DIFE[0].Tariff        = 1",
       cs! "DIFE[0].StorageNumber = 00", cs! "VIF           = 13", cs! "VIF.Extension = No", cs! "VIF.Value     = 13", []] :=
  ⟨_, rfl, .cons (dif := 0x84) (difes := [0x10]) (vif := 0x13) (text := []) (vifes := []) (data := [1, 2, 3, 4])
    (by simp only [Rec.Legal, DataFits]; rw [if_neg (by decide)]; decide) .nil, by decide +kernel⟩

/-! Direct instances of the theorems above. -/

example (uninit : Buf 256) := C96_frame_print_partial uninit
  [{ Frame.zero with type := 2, control := 0x5B, address := 1, start1 := 0x10, stop := 0x16, checksum := 0x5C }, { Frame.zero with type := 1, start1 := 0xE5 }] [.short 0x5B 1, .ack] (by simp)
  (.cons ⟨by decide, by decide, ⟨rfl, rfl⟩, by decide⟩ (.cons ⟨by decide, by decide, rfl, by decide⟩ .nil))
/-- a value with one DIFE -/
def difeFrame : Frame := rsp 0x72 (hdr ++ [0x84, 0x10, 0x13, 1, 2, 3, 4])
example := C97_variable_print difeFrame VarData.zero _ (by decide) rfl
example := C97_functions_partial difeFrame VarData.zero _ (by decide) rfl
/-- a fixed-format answer -/
example := C97_fixed_print (rsp 0x73 [0x78, 0x56, 0x34, 0x12, 0x0A, 0, 0xE9, 0x7E, 1, 0, 0, 0, 0x35, 1, 0, 0]) FixedData.zero _ rfl

end Mbus
