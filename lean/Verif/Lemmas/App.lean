import Verif.Lemmas.Tiles
/- Lemmas about the application-layer entry points: header, delivered records, packing, DIFE accessors. -/
namespace Mbus
open Spec

theorem delivers_mkRec (r : Rec) (h : r.Legal) : Delivers (mkRec r) r := by
  cases r with
  | special dif data =>
    obtain ⟨_, h2⟩ := h
    exact ⟨rfl, rfl, rfl, rfl, pad_take h2⟩
  | value dif difes vif text vifes data =>
    obtain ⟨a1, a2, a3, a4, a5, a6, a7, a8, a9, a10⟩ := h
    refine ⟨rfl, rfl, pad_take a5, rfl, rfl, pad_take a7, ?_, rfl, ?_⟩
    · intro hv
      simp only [mkRec, if_pos hv]
      rw [pad_bytes (by simp; omega)]
      obtain ⟨k, hk⟩ : ∃ k, 128 - text.reverse.length = k + 1 := ⟨127 - text.length, by simp; omega⟩
      rw [hk, List.replicate_succ]
      exact ⟨List.replicate k 0, by simp⟩
    · have : data.length ≤ 234 := by
        unfold DataFits at a10
        split at a10
        · obtain ⟨lv, rest, rfl, hr⟩ := a10
          have := lvarBytes_le lv
          simp; omega
        · have := width_le dif; omega
      exact pad_take this

theorem tiles_legal {bs : List Byte} {rs : List Rec} (h : Tiles bs rs) : ∀ r ∈ rs, r.Legal := by
  induction h with
  | nil => simp
  | filler _ ih => exact ih
  | last dif data hL => simpa using hL
  | cons hL _ ih => simp only [List.mem_cons, forall_eq_or_imp]; exact ⟨hL, ih⟩

theorem tiles_count {bs : List Byte} {rs : List Rec} (h : Tiles bs rs) : rs.length ≤ bs.length := by
  induction h with
  | nil => simp
  | filler _ ih => simp; omega
  | last dif data hL => simp
  | cons hL _ ih => simp [Rec.encode]; omega

theorem pointwise_mkRec (rs : List Rec) (h : ∀ r ∈ rs, r.Legal) : Pointwise Delivers (rs.map mkRec) rs := by
  induction rs with
  | nil => exact .nil
  | cons r rs ih => exact .cons (delivers_mkRec r (h r (by simp))) (ih fun r hr => h r (by simp [hr]))

/-- the only special record of a tiling is the last one -/
theorem tiles_value {bs : List Byte} {rs : List Rec} (h : Tiles bs rs) :
    ∀ r ∈ rs.dropLast, difOf r ≠ 0x0F ∧ difOf r ≠ 0x1F := by
  induction h with
  | nil => simp
  | filler _ ih => exact ih
  | last dif data hL => simp
  | @cons dif difes vif text vifes data bs rs hL h1 ih =>
    cases rs with
    | nil => simp
    | cons r rs =>
      simp only [List.dropLast_cons_cons, List.mem_cons, forall_eq_or_imp]
      exact ⟨⟨hL.1, hL.2.1⟩, ih⟩

theorem tiles_more {bs : List Byte} {rs : List Rec} (h : Tiles bs rs) :
    rs.any (fun r => difOf r == 0x1F) = true ↔ EndsWithMore rs := by
  induction h with
  | nil => simp [EndsWithMore]
  | filler _ ih => exact ih
  | last dif data hL => simp [EndsWithMore, difOf]
  | @cons dif difes vif text vifes data bs rs hL h1 ih =>
    have hne : dif ≠ 0x1F := hL.2.1
    rw [List.any_cons]
    cases rs with
    | nil => simp [EndsWithMore, difOf, hne]
    | cons r rs =>
      have : (difOf (Rec.value dif difes vif text vifes data) == 0x1F) = false := beq_eq_false_iff_ne.mpr hne
      rw [this, Bool.false_or, ih]
      simp [EndsWithMore]

theorem endsWithMore_dif {bs : List Byte} {rs : List Rec} (h : Tiles bs rs) :
    EndsWithMore rs ↔ ∃ r, rs.getLast? = some r ∧ difOf r = 0x1F := by
  constructor
  · rintro ⟨d, hd⟩; exact ⟨_, hd, rfl⟩
  · rintro ⟨r, hr, hd⟩
    rw [← tiles_more h, List.any_eq_true]
    exact ⟨r, List.mem_of_getLast? hr, by simp [hd]⟩

theorem split12 (l : List Byte) (h : 12 ≤ l.length) : ∃ a b c d e f g i j k m n t,
    l = a :: b :: c :: d :: e :: f :: g :: i :: j :: k :: m :: n :: t := by
  obtain ⟨a, l, rfl⟩ := List.exists_cons_of_length_pos (show 0 < l.length by omega); simp at h
  obtain ⟨b, l, rfl⟩ := List.exists_cons_of_length_pos (show 0 < l.length by omega); simp at h
  obtain ⟨c, l, rfl⟩ := List.exists_cons_of_length_pos (show 0 < l.length by omega); simp at h
  obtain ⟨d, l, rfl⟩ := List.exists_cons_of_length_pos (show 0 < l.length by omega); simp at h
  obtain ⟨e, l, rfl⟩ := List.exists_cons_of_length_pos (show 0 < l.length by omega); simp at h
  obtain ⟨f, l, rfl⟩ := List.exists_cons_of_length_pos (show 0 < l.length by omega); simp at h
  obtain ⟨g, l, rfl⟩ := List.exists_cons_of_length_pos (show 0 < l.length by omega); simp at h
  obtain ⟨i, l, rfl⟩ := List.exists_cons_of_length_pos (show 0 < l.length by omega); simp at h
  obtain ⟨j, l, rfl⟩ := List.exists_cons_of_length_pos (show 0 < l.length by omega); simp at h
  obtain ⟨k, l, rfl⟩ := List.exists_cons_of_length_pos (show 0 < l.length by omega); simp at h
  obtain ⟨m, l, rfl⟩ := List.exists_cons_of_length_pos (show 0 < l.length by omega); simp at h
  obtain ⟨n, l, rfl⟩ := List.exists_cons_of_length_pos (show 0 < l.length by omega)
  exact ⟨a, b, c, d, e, f, g, i, j, k, m, n, l, rfl⟩

theorem varHeader_eq (d : Buf 252) : ∃ h, varHeader d = .ok h ∧ HeaderIs h d.bytes := by
  obtain ⟨a, b, c, e, f, g, i, j, k, m, n, o, t, ht⟩ := split12 d.bytes (by simp)
  refine ⟨{ idBcd := Buf.of4 a b c e, manufacturer := Buf.of2 f g, version := i, medium := j, accessNo := k,
            status := m, signature := Buf.of2 n o }, ?_, ?_⟩
  · unfold varHeader Buf.rd rd
    rw [ht]
    rfl
  · unfold HeaderIs; rw [ht]; rfl

theorem variableParse_eq (f : Frame) (v : VarData) (h12 : 12 ≤ f.dataSize) :
    ∃ h, varHeader f.data = .ok h ∧ HeaderIs h (payload f) ∧
      variableParse f v = varLoop f.data f.dataSize f.dataSize 12 { header := h, records := [], nrecords := 0, more := 0 } := by
  obtain ⟨h, h1, h2⟩ := varHeader_eq f.data
  refine ⟨h, h1, ?_, ?_⟩
  · unfold HeaderIs payload at *
    rw [h2, List.take_take, Nat.min_eq_left h12]
  · unfold variableParse
    rw [if_neg (by omega)]
    simp only [h1, ok_bind]

theorem variableParse_short (f : Frame) (v : VarData) (h12 : f.dataSize < 12) :
    variableParse f v = .ok (-1, { v with nrecords := 0, more := 0 }) := by
  unfold variableParse; rw [if_pos h12]

/-- Everything a successful parse says. -/
theorem variableParse_sound (f : Frame) (v v' : VarData) (hs : f.dataSize ≤ 252) (h : variableParse f v = .ok (0, v')) :
    12 ≤ f.dataSize ∧ HeaderIs v'.header (payload f) ∧ ∃ rs, Tiles ((payload f).drop 12) rs ∧ v'.records = rs.map mkRec ∧
      v'.nrecords = rs.length ∧ v'.more = if rs.any (fun r => difOf r == 0x1F) then 1 else 0 := by
  by_cases h12 : f.dataSize < 12
  · rw [variableParse_short f v h12] at h; simp at h
  · obtain ⟨hd, _, hh, he⟩ := variableParse_eq f v (by omega)
    rw [he] at h
    obtain ⟨rs, h1, rfl⟩ := varLoop_sound _ _ hs _ _ _ _ h
    exact ⟨by omega, hh, rs, h1, by simp [addRecs], by simp [addRecs], rfl⟩

theorem variableParse_complete (f : Frame) (v : VarData) (hs : f.dataSize ≤ 252) (h12 : 12 ≤ f.dataSize) (rs : List Rec)
    (h : Tiles ((payload f).drop 12) rs) :
    ∃ v', variableParse f v = .ok (0, v') ∧ HeaderIs v'.header (payload f) ∧ v'.records = rs.map mkRec ∧
      v'.nrecords = rs.length ∧ v'.more = if rs.any (fun r => difOf r == 0x1F) then 1 else 0 := by
  obtain ⟨hd, _, hh, he⟩ := variableParse_eq f v (by omega)
  rw [he]
  exact ⟨_, varLoop_complete _ _ hs _ _ _ rs h (by omega), hh, by simp [addRecs], by simp [addRecs], rfl⟩

theorem variableParse_fault (f : Frame) (v : VarData) (hs : f.dataSize ≤ 252) (e : Fault) (h : variableParse f v = .error e) :
    (e = .oobRead 252 252 ∧ 251 ≤ f.dataSize) ∨ (e = .oobWrite 128 128 ∧ 143 ≤ f.dataSize) ∨
      (e = .oobWrite 234 234 ∧ 248 ≤ f.dataSize) := by
  by_cases h12 : f.dataSize < 12
  · rw [variableParse_short f v h12] at h; simp at h
  · obtain ⟨hd, _, hh, he⟩ := variableParse_eq f v (by omega)
    rw [he] at h
    exact varLoop_fault _ _ hs _ _ _ (by omega) (by omega) e h

theorem varLoop_code (d : Buf 252) (size fuel i : Nat) (v : VarData) (c : Int) (v' : VarData)
    (h : varLoop d size fuel i v = .ok (c, v')) : c = 0 ∨ c = -1 := by
  induction fuel generalizing i v with
  | zero =>
    rw [varLoop] at h
    split at h
    · simp at h
    · simp at h; left; exact h.1.symm
  | succ fuel ih =>
    rw [varLoop] at h
    split at h
    · simp only [bind_eq_ok] at h
      obtain ⟨b, _, h⟩ := h
      split at h
      · exact ih _ _ h
      · rw [bind_eq_ok] at h
        obtain ⟨o, _, h⟩ := h
        cases o with
        | none => simp at h; right; exact h.1.symm
        | some q => exact ih _ _ h
    · simp at h; left; exact h.1.symm

theorem variableParse_code (f : Frame) (v : VarData) (c : Int) (v' : VarData) (h : variableParse f v = .ok (c, v')) :
    c = 0 ∨ c = -1 := by
  by_cases h12 : f.dataSize < 12
  · rw [variableParse_short f v h12] at h; simp at h; right; exact h.1.symm
  · obtain ⟨hd, _, hh, he⟩ := variableParse_eq f v (by omega)
    rw [he] at h
    exact varLoop_code _ _ _ _ _ _ _ h

theorem frameDataParse_cases (f : Frame) (x : FrameData) :
    (f.control &&& 0x40 ≠ 0 → frameDataParse f x = .ok (-1, x)) ∧
    (f.control &&& 0x40 = 0 → f.ci = 0x73 → frameDataParse f x = if f.dataSize = 0 then .ok (-1, x) else do
      let q ← fixedParse f x.fix
      .ok (q.1, { x with type := DATA_FIXED, fix := q.2 })) ∧
    (f.control &&& 0x40 = 0 → f.ci = 0x72 → frameDataParse f x = if f.dataSize = 0 then .ok (-1, x) else do
      let q ← variableParse f x.var
      .ok (q.1, { x with type := DATA_VARIABLE, var := q.2 })) := by
  unfold frameDataParse
  refine ⟨fun h => ?_, fun h hc => ?_, fun h hc => ?_⟩
  · exact if_neg h
  · have h' : f.control &&& MASK_DIR = MASK_DIR_S2M := h
    rw [hc]; simp only [if_pos h']; rfl
  · have h' : f.control &&& MASK_DIR = MASK_DIR_S2M := h
    rw [hc]; simp only [if_pos h']; rfl

theorem rd_zero (d : Buf 252) (n : Nat) (h : 0 < n) : d.rd 0 = .ok ((d.bytes.take n).headD 0) := by
  have hl : d.bytes.length = 252 := by simp
  unfold Buf.rd rd
  generalize d.bytes = l at *
  cases l with
  | nil => simp at hl
  | cons a l =>
    obtain ⟨m, rfl⟩ : ∃ m, n = m + 1 := ⟨n - 1, by omega⟩
    rfl

theorem frameDataParse_error (f : Frame) (x : FrameData) (hd : f.control &&& 0x40 = 0) (hci : f.ci = 0x70) :
    frameDataParse f x = .ok (0, { x with type := DATA_ERROR, error := (((payload f).headD 0).toNat : Int) }) := by
  have hd' : f.control &&& MASK_DIR = MASK_DIR_S2M := hd
  unfold frameDataParse
  rw [if_pos hd', if_pos hci]
  by_cases h0 : f.dataSize > 0
  · rw [if_pos h0, rd_zero _ _ h0]; rfl
  · rw [if_neg h0]
    have : f.dataSize = 0 := by omega
    simp [payload, this]

/-! ### packing -/

theorem pushAll_append (f : Frame) (a b : List Byte) : pushAll f (a ++ b) = pushAll f a >>= fun f => pushAll f b := by
  induction a generalizing f with
  | nil => rfl
  | cons x xs ih =>
    simp only [List.cons_append, pushAll]
    cases push f x with
    | error e => rfl
    | ok g => simp only [ok_bind]; exact ih g

theorem pushArray_eq {k : Nat} (f : Frame) (a : Buf k) (n i : Nat) (h : i + n ≤ k) :
    (forN n i f fun j f => do
      let b ← a.rd j
      push f b) = pushAll f ((a.bytes.drop i).take n) := by
  induction n generalizing i f with
  | zero => simp [forN, pushAll]
  | succ n ih =>
    have hi : i < a.bytes.length := by simp; omega
    rw [forN, Buf.rd_lt a (by omega), List.drop_eq_getElem_cons hi, List.take_succ_cons, pushAll]
    simp only [ok_bind]
    cases push f a.bytes[i] with
    | error e => rfl
    | ok g => simp only [ok_bind]; exact ih g (i + 1) (by omega)

/-- `pushAll` succeeds iff the bytes fit; then the payload grows by exactly these bytes and nothing else changes. -/
theorem pushAll_ok (f : Frame) (bs : List Byte) (h : f.dataSize + bs.length ≤ 252) :
    ∃ f', pushAll f bs = .ok f' ∧ payload f' = payload f ++ bs ∧ f'.dataSize = f.dataSize + bs.length ∧
      f' = { f with data := f'.data, dataSize := f'.dataSize } := by
  induction bs generalizing f with
  | nil => exact ⟨f, rfl, by simp, by simp, rfl⟩
  | cons x xs ih =>
    simp at h
    have hp : push f x = .ok { f with data := ⟨f.data.bytes.set f.dataSize x, by simp⟩, dataSize := f.dataSize + 1 } := by
      unfold push Buf.wr; rw [if_pos (by omega)]; rfl
    rw [pushAll, hp]
    simp only [ok_bind]
    obtain ⟨g, h1, h2, h3, h4⟩ := ih { f with data := ⟨f.data.bytes.set f.dataSize x, by simp⟩, dataSize := f.dataSize + 1 }
      (by simp only; omega)
    refine ⟨g, h1, ?_, ?_, ?_⟩
    · rw [h2]
      unfold payload
      simp only
      rw [List.take_add_one, List.take_set_of_le (Nat.le_refl _), List.getElem?_set_self (by simp; omega)]
      simp
    · rw [h3]; simp; omega
    · rw [h4]

theorem pushAll_full (f : Frame) (bs : List Byte) (h : 252 < f.dataSize + bs.length) (hf : f.dataSize ≤ 252) :
    pushAll f bs = .error (.oobWrite 252 252) := by
  induction bs generalizing f with
  | nil => simp at h; omega
  | cons x xs ih =>
    simp at h
    by_cases hx : f.dataSize < 252
    · have hp : push f x = .ok { f with data := ⟨f.data.bytes.set f.dataSize x, by simp⟩, dataSize := f.dataSize + 1 } := by
        unfold push Buf.wr; rw [if_pos (by omega)]; rfl
      rw [pushAll, hp]
      simp only [ok_bind]
      exact ih _ (by simp only; omega) (by simp only; omega)
    · have : f.dataSize = 252 := by omega
      rw [pushAll]
      unfold push Buf.wr
      rw [if_neg hx, this]; rfl

/-- bytes the packer emits for one record structure -/
def recBytes (r : Record) : List Byte :=
  r.dif :: r.dife.bytes.take r.ndife ++ r.vif :: r.vife.bytes.take r.nvife ++ r.data.bytes.take r.dataLen

theorem packRecords_eq (f : Frame) (rs : List Record) (h : ∀ r ∈ rs, r.ndife ≤ 10 ∧ r.nvife ≤ 10 ∧ r.dataLen ≤ 234) :
    packRecords f rs = pushAll f (rs.flatMap recBytes) := by
  induction rs generalizing f with
  | nil => rfl
  | cons r rs ih =>
    obtain ⟨h1, h2, h3⟩ := h r (by simp)
    have one : ∀ (f : Frame) b, push f b = pushAll f [b] := by
      intro f b; simp only [pushAll]; cases push f b <;> rfl
    have e : recBytes r = [r.dif] ++ (r.dife.bytes.take r.ndife ++ ([r.vif] ++ (r.vife.bytes.take r.nvife ++
        r.data.bytes.take r.dataLen))) := by simp [recBytes]
    rw [packRecords, List.flatMap_cons, e, List.append_assoc, List.append_assoc, List.append_assoc, List.append_assoc,
      pushAll_append, one]
    unfold pushArray
    cases pushAll f [r.dif] with
    | error e => rfl
    | ok f1 =>
      simp only [ok_bind]
      rw [pushAll_append, pushArray_eq f1 r.dife r.ndife 0 (by omega), List.drop_zero]
      cases pushAll f1 _ with
      | error e => rfl
      | ok f2 =>
        simp only [ok_bind]
        rw [one, pushAll_append]
        cases pushAll f2 [r.vif] with
        | error e => rfl
        | ok f3 =>
          simp only [ok_bind]
          rw [pushAll_append, pushArray_eq f3 r.vife r.nvife 0 (by omega), List.drop_zero]
          cases pushAll f3 _ with
          | error e => rfl
          | ok f4 =>
            simp only [ok_bind]
            rw [pushAll_append, pushArray_eq f4 r.data r.dataLen 0 (by omega), List.drop_zero]
            cases pushAll f4 _ with
            | error e => rfl
            | ok f5 =>
              simp only [ok_bind]
              exact ih f5 fun r hr => h r (by simp [hr])

theorem data_le {dif : Byte} {data : List Byte} (a10 : DataFits dif data) : data.length ≤ 234 := by
  unfold DataFits at a10
  split at a10
  · obtain ⟨lv, rest, rfl, hr⟩ := a10
    have := lvarBytes_le lv
    simp; omega
  · have := width_le dif; omega

theorem mkRec_bounds (r : Rec) (h : r.Legal) : (mkRec r).ndife ≤ 10 ∧ (mkRec r).nvife ≤ 10 ∧ (mkRec r).dataLen ≤ 234 := by
  cases r with
  | special dif data => exact ⟨by simp [mkRec, Record.new], by simp [mkRec, Record.new], h.2⟩
  | value dif difes vif text vifes data =>
    obtain ⟨a1, a2, a3, a4, a5, a6, a7, a8, a9, a10⟩ := h
    exact ⟨a5, a7, data_le a10⟩

theorem recBytes_mkRec (r : Rec) (h : r.Legal) : recBytes (mkRec r) = Emitted r := by
  cases r with
  | special dif data =>
    simp only [recBytes, mkRec, Emitted, pad_take h.2, Record.new]
    simp
  | value dif difes vif text vifes data =>
    obtain ⟨a1, a2, a3, a4, a5, a6, a7, a8, a9, a10⟩ := h
    simp only [recBytes, mkRec, Emitted, pad_take a5, pad_take a7, pad_take (data_le a10)]

theorem flatMap_mkRec (rs : List Rec) (h : ∀ r ∈ rs, r.Legal) : (rs.map mkRec).flatMap recBytes = rs.flatMap Emitted := by
  induction rs with
  | nil => rfl
  | cons r rs ih =>
    simp only [List.map_cons, List.flatMap_cons]
    rw [recBytes_mkRec r (h r (by simp)), ih fun r hr => h r (by simp [hr])]

theorem header_length (h : VarHeader) (p : List Byte) (hp : HeaderIs h p) : (p.take 12).length = 12 := by
  rw [← hp]; simp

theorem internalPack_var (g : Frame) (x : FrameData) (ht : x.type = DATA_VARIABLE) (rs : List Rec) (p : List Byte)
    (hh : HeaderIs x.var.header p) (hl : ∀ r ∈ rs, r.Legal) (hr : x.var.records = rs.map mkRec) :
    (12 + (rs.flatMap Emitted).length ≤ 252 → ∃ g', internalPack g x = .ok (0, g') ∧
      payload g' = p.take 12 ++ rs.flatMap Emitted ∧ g' = { g with data := g'.data, dataSize := g'.dataSize }) ∧
    (252 < 12 + (rs.flatMap Emitted).length → internalPack g x = .error (.oobWrite 252 252)) := by
  have e : internalPack g x = (do
      let f ← pushAll { g with dataSize := 0 } (p.take 12 ++ rs.flatMap Emitted)
      .ok (0, f)) := by
    unfold internalPack
    rw [if_neg (by rw [ht]; decide), if_neg (by rw [ht]; decide), if_pos ht]
    simp only
    unfold HeaderIs at hh
    rw [hh, pushAll_append]
    cases pushAll { g with dataSize := 0 } (p.take 12) with
    | error e => rfl
    | ok f =>
      simp only [ok_bind]
      rw [hr, packRecords_eq, flatMap_mkRec rs hl]
      intro r hm
      obtain ⟨r', h', rfl⟩ := List.mem_map.mp hm
      exact mkRec_bounds r' (hl r' h')
  have hlen := header_length _ _ hh
  constructor
  · intro hfit
    obtain ⟨g', h1, h2, h3, h4⟩ := pushAll_ok { g with dataSize := 0 } (p.take 12 ++ rs.flatMap Emitted)
      (by simp only [List.length_append]; omega)
    refine ⟨g', by rw [e, h1]; rfl, by rw [h2]; simp [payload], ?_⟩
    rw [h4]
  · intro hbig
    rw [e, pushAll_full _ _ (by simp only [List.length_append]; omega) (by simp)]
    rfl

/-! ### DIFE accessors -/

theorem or_shift (acc p bit : Nat) (h : acc < 2 ^ bit) : acc ||| (p <<< bit) = acc + p * 2 ^ bit := by
  rw [Nat.or_comm, ← Nat.shiftLeft_add_eq_or_of_lt h, Nat.shiftLeft_eq, Nat.add_comm]

/-- Σ part(x_i) * 2^(bit + step*i) -/
def wsum (part : Byte → Nat) (step : Nat) : Nat → List Byte → Nat
  | _, [] => 0
  | bit, x :: xs => part x * 2 ^ bit + wsum part step (bit + step) xs

theorem assemble_loop (dife : Buf 10) (part : Byte → Nat) (step : Nat) (hp : ∀ b, part b < 2 ^ step) (n i acc bit : Nat)
    (hn : i + n ≤ 10) (ha : acc < 2 ^ bit) (hb : acc < 2147483648) :
    (forN n i (acc, bit) fun i (s : Nat × Nat) => do
      let b ← dife.rd i
      if 32 ≤ s.2 then .error .shift
      else if part b <<< s.2 > 2147483647 then .error .shift
      else .ok (s.1 ||| (part b <<< s.2), s.2 + step)) =
    if (n = 0 ∨ bit + step * (n - 1) < 32) ∧ acc + wsum part step bit ((dife.bytes.drop i).take n) < 2147483648
      then .ok (acc + wsum part step bit ((dife.bytes.drop i).take n), bit + step * n) else .error .shift := by
  induction n generalizing i acc bit with
  | zero => simp [forN, wsum, hb]
  | succ n ih =>
    have hi : i < dife.bytes.length := by simp; omega
    rw [forN, Buf.rd_lt dife (by omega), List.drop_eq_getElem_cons hi, List.take_succ_cons, wsum]
    simp only [ok_bind]
    generalize dife.bytes[i] = x
    by_cases h1 : 32 ≤ bit
    · rw [if_pos h1, if_neg (by omega)]; rfl
    · rw [if_neg h1]
      have hsh : part x <<< bit = part x * 2 ^ bit := Nat.shiftLeft_eq _ _
      by_cases h2 : part x <<< bit > 2147483647
      · rw [if_pos h2, if_neg (by rw [hsh] at h2; omega)]; rfl
      · rw [if_neg h2]
        simp only [ok_bind]
        rw [or_shift acc (part x) bit ha]
        have hacc : acc + part x * 2 ^ bit < 2 ^ (bit + step) := by
          have := hp x
          calc acc + part x * 2 ^ bit < 2 ^ bit + part x * 2 ^ bit := by omega
            _ = (part x + 1) * 2 ^ bit := by rw [Nat.add_mul]; omega
            _ ≤ 2 ^ step * 2 ^ bit := Nat.mul_le_mul_right _ (by omega)
            _ = 2 ^ (bit + step) := by rw [← Nat.pow_add, Nat.add_comm]
        have hlt : acc + part x * 2 ^ bit < 2147483648 := by
          obtain ⟨k, hk⟩ : ∃ k, 31 = bit + k := ⟨31 - bit, by omega⟩
          have e : 2147483648 = 2 ^ k * 2 ^ bit := by rw [← Nat.pow_add, Nat.add_comm, ← hk]
          rw [hsh] at h2
          have h3 : part x * 2 ^ bit < 2 ^ k * 2 ^ bit := by omega
          have h4 := Nat.lt_of_mul_lt_mul_right h3
          have h5 : (part x + 1) * 2 ^ bit ≤ 2 ^ k * 2 ^ bit := Nat.mul_le_mul_right _ (by omega)
          rw [Nat.add_mul] at h5
          omega
        rw [ih (i + 1) _ (bit + step) (by omega) hacc hlt]
        have hcond : (n = 0 ∨ bit + step + step * (n - 1) < 32) ↔ (n + 1 = 0 ∨ bit + step * (n + 1 - 1) < 32) := by
          cases n with
          | zero => simp; omega
          | succ n => simp [Nat.mul_add]; omega
        have e2 : acc + part x * 2 ^ bit + wsum part step (bit + step) (List.take n (List.drop (i + 1) dife.bytes)) =
            acc + (part x * 2 ^ bit + wsum part step (bit + step) (List.take n (List.drop (i + 1) dife.bytes))) := by omega
        have e3 : bit + step + step * n = bit + step * (n + 1) := by rw [Nat.mul_add]; omega
        rw [e2, e3]
        simp only [hcond]

theorem assemble_eq (dife : Buf 10) (part : Byte → Nat) (step : Nat) (hp : ∀ b, part b < 2 ^ step) (n acc bit : Nat)
    (hn : n ≤ 10) (ha : acc < 2 ^ bit) (hb : acc < 2147483648) :
    assemble dife part step n acc bit =
    if (n = 0 ∨ bit + step * (n - 1) < 32) ∧ acc + wsum part step bit (dife.bytes.take n) < 2147483648
      then .ok (acc + wsum part step bit (dife.bytes.take n), bit + step * n) else .error .shift := by
  have := assemble_loop dife part step hp n 0 acc bit (by omega) ha hb
  rw [List.drop_zero] at this
  exact this

theorem wsum_shift (part : Byte → Nat) (step bit k : Nat) (l : List Byte) :
    wsum part step (bit + k) l = 2 ^ k * wsum part step bit l := by
  induction l generalizing bit with
  | nil => simp [wsum]
  | cons x xs ih =>
    rw [wsum, wsum, show bit + k + step = (bit + step) + k by omega, ih, Nat.pow_add, Nat.mul_add]
    congr 1
    rw [Nat.mul_comm (2 ^ bit), ← Nat.mul_assoc, Nat.mul_comm _ (2 ^ k), Nat.mul_assoc]

theorem wsum_storage (l : List Byte) : wsum (fun b => (b &&& 0x0F).toNat) 4 0 l = nibbles l := by
  induction l with
  | nil => rfl
  | cons x xs ih =>
    have hx : ∀ x : Byte, (x &&& 0x0F).toNat = x.toNat % 16 := forall_byte (by decide +kernel)
    rw [wsum, wsum_shift _ 4 0 4, ih, nibbles, hx]; simp

theorem wsum_tariff (l : List Byte) : wsum (fun b => (b &&& 0x30).toNat >>> 4) 2 0 l = tariffOf l := by
  induction l with
  | nil => rfl
  | cons x xs ih =>
    have hx : ∀ x : Byte, (x &&& 0x30).toNat >>> 4 = x.toNat / 16 % 4 := forall_byte (by decide +kernel)
    rw [wsum, wsum_shift _ 2 0 2, ih, tariffOf, hx]; simp

theorem wsum_device (l : List Byte) : wsum (fun b => (b &&& 0x40).toNat >>> 6) 1 0 l = deviceOf l := by
  induction l with
  | nil => rfl
  | cons x xs ih =>
    have hx : ∀ x : Byte, (x &&& 0x40).toNat >>> 6 = x.toNat / 64 % 2 := forall_byte (by decide +kernel)
    rw [wsum, wsum_shift _ 1 0 1, ih, deviceOf, hx]; simp

theorem wsum_lt (part : Byte → Nat) (step : Nat) (hp : ∀ b, part b < 2 ^ step) (l : List Byte) :
    wsum part step 0 l < 2 ^ (step * l.length) := by
  induction l with
  | nil => simp [wsum]
  | cons x xs ih =>
    have e := wsum_shift part step 0 step xs
    rw [wsum, e]
    have := hp x
    simp only [Nat.pow_zero, Nat.mul_one, List.length_cons, Nat.mul_add, Nat.pow_add, Nat.mul_one]
    have h2 : 2 ^ step * (wsum part step 0 xs + 1) ≤ 2 ^ step * 2 ^ (step * xs.length) := Nat.mul_le_mul_left _ (by omega)
    rw [Nat.mul_add] at h2
    rw [Nat.mul_comm (2 ^ (step * xs.length))]
    omega

theorem storageNumber_eq (r : Record) (h : r.ndife ≤ 10) :
    storageNumber r = if r.ndife ≤ 8 ∧ storageOf r.dif (r.dife.bytes.take r.ndife) < 2147483648
      then .ok (storageOf r.dif (r.dife.bytes.take r.ndife) : Int) else .error .shift := by
  have hx : ∀ x : Byte, (x &&& 0x0F).toNat < 2 ^ 4 := forall_byte (by decide +kernel)
  have hd : ∀ x : Byte, (x &&& 0x40).toNat >>> 6 = x.toNat / 64 % 2 := forall_byte (by decide +kernel)
  have := Nat.mod_lt (r.dif.toNat / 64) (show 0 < 2 by decide)
  unfold storageNumber storageOf
  rw [assemble_eq _ _ 4 hx _ _ _ h (by rw [hd]; simpa using this) (by rw [hd]; omega), hd]
  have e : wsum (fun b => (b &&& 0x0F).toNat) 4 1 (r.dife.bytes.take r.ndife) = 2 * nibbles (r.dife.bytes.take r.ndife) := by
    have := wsum_shift (fun b => (b &&& 0x0F).toNat) 4 0 1 (r.dife.bytes.take r.ndife)
    rw [wsum_storage] at this
    simpa using this
  rw [e]
  by_cases hc : r.ndife ≤ 8 ∧ r.dif.toNat / 64 % 2 + 2 * nibbles (r.dife.bytes.take r.ndife) < 2147483648
  · rw [if_pos hc, if_pos ⟨by omega, hc.2⟩]; rfl
  · rw [if_neg hc, if_neg (by omega)]; rfl

theorem tariff_eq (r : Record) (h : r.ndife ≤ 10) :
    tariff r = .ok (if r.ndife = 0 then -1 else (tariffOf (r.dife.bytes.take r.ndife) : Int)) := by
  have hx : ∀ x : Byte, (x &&& 0x30).toNat >>> 4 < 2 ^ 2 := forall_byte (by decide +kernel)
  have hlt := wsum_lt _ 2 hx (r.dife.bytes.take r.ndife)
  unfold tariff
  by_cases h0 : r.ndife > 0
  · have h2 : 2 ^ (2 * (r.dife.bytes.take r.ndife).length) ≤ 2 ^ 20 := Nat.pow_le_pow_right (by decide) (by simp; omega)
    rw [if_pos h0, assemble_eq _ _ 2 hx _ _ _ h (by decide) (by decide), if_pos ⟨by omega, by omega⟩,
      if_neg (show ¬ r.ndife = 0 by omega), wsum_tariff]
    simp
  · rw [if_neg h0, if_pos (by omega)]

theorem device_eq (r : Record) (h : r.ndife ≤ 10) :
    device r = .ok (if r.ndife = 0 then -1 else (deviceOf (r.dife.bytes.take r.ndife) : Int)) := by
  have hx : ∀ x : Byte, (x &&& 0x40).toNat >>> 6 < 2 ^ 1 := forall_byte (by decide +kernel)
  have hlt := wsum_lt _ 1 hx (r.dife.bytes.take r.ndife)
  unfold device
  by_cases h0 : r.ndife > 0
  · have h2 : 2 ^ (1 * (r.dife.bytes.take r.ndife).length) ≤ 2 ^ 20 := Nat.pow_le_pow_right (by decide) (by simp; omega)
    rw [if_pos h0, assemble_eq _ _ 1 hx _ _ _ h (by decide) (by decide), if_pos ⟨by omega, by omega⟩,
      if_neg (show ¬ r.ndife = 0 by omega), wsum_device]
    simp
  · rw [if_neg h0, if_pos (by omega)]

end Mbus
