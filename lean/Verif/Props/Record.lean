import Verif.Lemmas.App
/-
Property theorems C26-C36 (application layer).  Statements use the model functions, the structure fields and the
specifications Spec/Records.lean and Spec/Deliver.lean.
-/
namespace Mbus
open Spec

theorem pad_len (p : List Byte) (s : Byte) : ((p ++ List.replicate 252 s).take 252).length = 252 := by
  rw [List.length_take, List.length_append, List.length_replicate]; omega

/-- A LONG response frame with payload `p` (data array zero filled after it), CI `ci`. -/
def rsp (ci : Byte) (p : List Byte) (stale : Byte := 0) : Frame :=
  { Frame.zero with
    control := 0x08
    ci := ci
    type := TYPE_LONG
    data := ⟨(p ++ List.replicate 252 stale).take 252, pad_len p stale⟩
    dataSize := p.length }

/-- A 12-byte header. -/
def hdr : List Byte := [0x78, 0x56, 0x34, 0x12, 0x24, 0x40, 0x01, 0x07, 0x55, 0, 0, 0]

/-! ### C26 -/

/-- C26: the record loop always ends (the model's fuel is never used up), with return value 0 or -1. -/
theorem C26_terminates (f : Frame) (v : VarData) (hs : f.dataSize ≤ 252) :
    variableParse f v ≠ .error .outOfFuel ∧ ∀ c v', variableParse f v = .ok (c, v') → c = 0 ∨ c = -1 := by
  refine ⟨fun h => ?_, fun c v' h => variableParse_code f v c v' h⟩
  rcases variableParse_fault f v hs _ h with ⟨h, _⟩ | ⟨h, _⟩ | ⟨h, _⟩ <;> simp at h

example := C26_terminates (rsp 0x72 (hdr ++ [0x01, 0x13, 0x05, 0x2F, 0x0F, 0xAA])) VarData.zero (by decide)

/-- C26: on success the count is the length of the list and at most the number of payload bytes behind the header. -/
theorem C26_count (f : Frame) (v v' : VarData) (hs : f.dataSize ≤ 252) (h : variableParse f v = .ok (0, v')) :
    v'.nrecords = v'.records.length ∧ v'.nrecords + 12 ≤ f.dataSize := by
  obtain ⟨h12, _, rs, ht, hr, hn, _⟩ := variableParse_sound f v v' hs h
  have := tiles_count ht
  simp [payload] at this
  exact ⟨by rw [hr, hn]; simp, by omega⟩

example : ∃ v', variableParse (rsp 0x72 (hdr ++ [0x01, 0x13, 0x05, 0x2F, 0x0F, 0xAA])) VarData.zero = .ok (0, v') ∧ v'.nrecords = 2 :=
  ⟨_, rfl, by decide +kernel⟩

/-! ### C27 -/

/-- C27: memory safety for payloads of at most 142 bytes; up to 250 bytes there is no out-of-bounds read, up to 247 the only
fault is the one-byte overflow of the custom VIF text.
Missing: the remaining sizes, where the claim is false (`C27_*_violation`). -/
theorem C27_safe_partial (f : Frame) (v : VarData) (hs : f.dataSize ≤ 252) :
    (f.dataSize ≤ 142 → ∃ c v', variableParse f v = .ok (c, v')) ∧
    (f.dataSize ≤ 247 → ∀ e, variableParse f v = .error e → e = .oobWrite 128 128) ∧
    (f.dataSize ≤ 250 → ∀ n i, variableParse f v ≠ .error (.oobRead n i)) ∧
    (∀ e, variableParse f v = .error e → e = .oobRead 252 252 ∨ e = .oobWrite 128 128 ∨ e = .oobWrite 234 234) := by
  refine ⟨fun h => ?_, fun h e he => ?_, fun h n i he => ?_, fun e he => ?_⟩
  · cases hp : variableParse f v with
    | ok q => exact ⟨q.1, q.2, rfl⟩
    | error e => rcases variableParse_fault f v hs e hp with ⟨_, _⟩ | ⟨_, _⟩ | ⟨_, _⟩ <;> omega
  · rcases variableParse_fault f v hs e he with ⟨_, _⟩ | ⟨h, _⟩ | ⟨_, _⟩
    · omega
    · exact h
    · omega
  · rcases variableParse_fault f v hs _ he with ⟨_, _⟩ | ⟨h, _⟩ | ⟨h, _⟩
    · omega
    · simp at h
    · simp at h
  · rcases variableParse_fault f v hs e he with ⟨h, _⟩ | ⟨h, _⟩ | ⟨h, _⟩ <;> simp [h]

example := (C27_safe_partial (rsp 0x72 (hdr ++ [0x01, 0x13, 0x05, 0x2F, 0x0F, 0xAA])) VarData.zero (by decide)).1 (by decide)

/-- C27 is false: a full payload (252 bytes) ending in a DIF makes the parser read behind the payload array. -/
theorem C27_read_violation : variableParse (rsp 0x72 (hdr ++ List.replicate 239 0x2F ++ [0x00])) VarData.zero = .error (.oobRead 252 252) := by
  decide +kernel

/-- C27 is false: a plain-text VIF of 128 characters overflows `custom_vif` by the terminating zero (143-byte payload). -/
theorem C27_text_violation : variableParse (rsp 0x72 (hdr ++ [0x00, 0x7C, 128] ++ List.replicate 128 0x41)) VarData.zero =
    .error (.oobWrite 128 128) := by
  decide +kernel

/-- C27 is false: manufacturer data of more than 234 bytes overflow the record's data array (248-byte payload). -/
theorem C27_special_violation : variableParse (rsp 0x72 (hdr ++ [0x0F] ++ List.replicate 235 0x41)) VarData.zero =
    .error (.oobWrite 234 234) := by
  decide +kernel

/-! ### C28 -/

/-- C28: for payloads of at most 250 bytes the whole outcome depends on the payload only; for longer ones two outcomes that
are not undefined behaviour agree.
Missing: 251- and 252-byte payloads, where whether the parse is undefined behaviour can depend on a stale byte
(`C28_violation`). -/
theorem C28_payload_only_partial (f g : Frame) (v : VarData) (hs : f.dataSize = g.dataSize) (h : payload f = payload g) :
    (f.dataSize ≤ 250 → variableParse f v = variableParse g v) ∧
    (f.dataSize ≤ 252 → ∀ a b, variableParse f v = .ok a → variableParse g v = .ok b → a = b) := by
  by_cases h12 : f.dataSize < 12
  · have h12' : g.dataSize < 12 := by omega
    rw [variableParse_short f v h12, variableParse_short g v h12']
    exact ⟨fun _ => rfl, fun _ a b ha hb => by rw [ha] at hb; injection hb⟩
  · obtain ⟨h1, a1, a2, a3⟩ := variableParse_eq f v (by omega)
    obtain ⟨h2, b1, b2, b3⟩ := variableParse_eq g v (by omega)
    have hh : h1 = h2 := by
      unfold HeaderIs at a2 b2
      rw [h, ← b2] at a2
      cases h1; cases h2
      rename_i i m ver med acc st sg i' m' ver' med' acc' st' sg'
      simp only [List.append_assoc, List.cons_append, List.nil_append] at a2
      obtain ⟨e1, a2⟩ := List.append_inj a2 (by simp)
      obtain ⟨e2, a2⟩ := List.append_inj a2 (by simp)
      simp only [List.cons.injEq] at a2
      obtain ⟨e3, e4, e5, e6, e7⟩ := a2
      simp [Buf.ext e1, Buf.ext e2, e3, e4, e5, e6, Buf.ext e7]
    subst hh
    unfold payload at h
    rw [← hs] at h
    rw [a3, b3, ← hs]
    exact ⟨fun hz => varLoop_stale _ _ _ hz h _ _ _, fun hz a b ha hb => varLoop_stale_ok _ _ _ hz h _ _ _ a b ha hb⟩

/-- two frames that differ behind the payload -/
example := (C28_payload_only_partial (rsp 0x72 (hdr ++ [0x01, 0x13, 5]) 1) (rsp 0x72 (hdr ++ [0x01, 0x13, 5]) 2) VarData.zero rfl (by decide +kernel)).1 (by decide)

/-- C28 is false for 251-byte payloads: same payload, but a stale byte 0x7C behind it turns a refusal into an out-of-bounds
read. -/
theorem C28_violation : payload (rsp 0x72 (hdr ++ List.replicate 238 0x2F ++ [0x00])) =
      payload (rsp 0x72 (hdr ++ List.replicate 238 0x2F ++ [0x00]) 0x7C) ∧
    (∃ v', variableParse (rsp 0x72 (hdr ++ List.replicate 238 0x2F ++ [0x00])) VarData.zero = .ok (-1, v')) ∧
    variableParse (rsp 0x72 (hdr ++ List.replicate 238 0x2F ++ [0x00]) 0x7C) VarData.zero = .error (.oobRead 252 252) := by
  refine ⟨by decide +kernel, ?_, by decide +kernel⟩
  exact ⟨_, (by decide +kernel : _ = Except.ok (-1, VarData.mk (VarHeader.mk (Buf.of4 0x78 0x56 0x34 0x12) (Buf.of2 0x24 0x40) 1 7 0x55 0 (Buf.of2 0 0)) [] 0 0))⟩

example : payload (rsp 0x72 hdr 1) = payload (rsp 0x72 hdr 2) ∧ rsp 0x72 hdr 1 ≠ rsp 0x72 hdr 2 := by decide +kernel

/-! ### C29 -/

/-- C29 (soundness): what is delivered is a tiling of the payload, in order, nothing lost. -/
theorem C29_tiles (f : Frame) (v v' : VarData) (hs : f.dataSize ≤ 252) (h : variableParse f v = .ok (0, v')) :
    12 ≤ f.dataSize ∧ HeaderIs v'.header (payload f) ∧
    ∃ rs, Tiles ((payload f).drop 12) rs ∧ Pointwise Delivers v'.records rs := by
  obtain ⟨h12, hh, rs, ht, hr, _, _⟩ := variableParse_sound f v v' hs h
  exact ⟨h12, hh, rs, ht, by rw [hr]; exact pointwise_mkRec rs (tiles_legal ht)⟩

example := C29_tiles (rsp 0x72 (hdr ++ [0x01, 0x13, 0x05, 0x2F, 0x0F, 0xAA])) VarData.zero _ (by decide) rfl

/-- C29 (completeness): every payload made of a header and legal records (with fillers) is accepted and yields exactly
these records. -/
theorem C29_accepts (f : Frame) (v : VarData) (hs : f.dataSize ≤ 252) (h12 : 12 ≤ f.dataSize) (rs : List Rec)
    (h : Tiles ((payload f).drop 12) rs) :
    ∃ v', variableParse f v = .ok (0, v') ∧ HeaderIs v'.header (payload f) ∧ Pointwise Delivers v'.records rs := by
  obtain ⟨v', h1, h2, h3, _⟩ := variableParse_complete f v hs h12 rs h
  exact ⟨v', h1, h2, by rw [h3]; exact pointwise_mkRec rs (tiles_legal h)⟩

example : Tiles [0x2F, 0x84, 0x10, 0xFC, 2, 0x41, 0x42, 0x10, 1, 2, 3, 4, 0x1F, 9, 9]
    [.value 0x84 [0x10] 0xFC [0x41, 0x42] [0x10] [1, 2, 3, 4], .special 0x1F [9, 9]] :=
  .filler (.cons (dif := 0x84) (difes := [0x10]) (vif := 0xFC) (text := [0x41, 0x42]) (vifes := [0x10]) (data := [1, 2, 3, 4])
    (by simp only [Rec.Legal, DataFits]; rw [if_neg (by decide)]; decide) (.last _ _ (by simp only [Rec.Legal]; decide)))

/-! ### C30 -/

/-- C30: packing what a variable-data parse delivered emits, for every record, exactly `Emitted` behind the header; if that
does not fit into 252 bytes the packer writes out of bounds. -/
theorem C30_pack_emits (f g : Frame) (x x' : FrameData) (hs : f.dataSize ≤ 252) (hci : f.ci = 0x72)
    (h : frameDataParse f x = .ok (0, x')) :
    ∃ rs, Tiles ((payload f).drop 12) rs ∧
      (12 + (rs.flatMap Emitted).length ≤ 252 → ∃ g', internalPack g x' = .ok (0, g') ∧
        payload g' = (payload f).take 12 ++ rs.flatMap Emitted ∧ g' = { g with data := g'.data, dataSize := g'.dataSize }) ∧
      (252 < 12 + (rs.flatMap Emitted).length → internalPack g x' = .error (.oobWrite 252 252)) := by
  obtain ⟨c1, _, c3⟩ := frameDataParse_cases f x
  by_cases hd : f.control &&& 0x40 = 0
  · rw [c3 hd hci] at h
    split at h
    · simp at h
    · rw [bind_eq_ok] at h
      obtain ⟨⟨c, y⟩, hp, h⟩ := h
      simp at h
      obtain ⟨rfl, rfl⟩ := h
      obtain ⟨h12, hh, rs, ht, hr, _, _⟩ := variableParse_sound f _ y hs hp
      refine ⟨rs, ht, ?_⟩
      exact internalPack_var g _ rfl rs (payload f) hh (tiles_legal ht) hr
  · rw [c1 hd] at h; simp at h

example := C30_pack_emits (rsp 0x72 (hdr ++ [0x01, 0x13, 0x05, 0x2F, 0x0F, 0xAA])) Frame.zero FrameData.new _ (by decide) rfl rfl

theorem tiles_encode (rs : List Rec) (hv : ∀ r ∈ rs, r.Legal ∧ ∃ a b c d e g, r = .value a b c d e g) :
    Tiles (rs.flatMap Rec.encode) rs := by
  induction rs with
  | nil => exact .nil
  | cons r rs ih =>
    obtain ⟨hL, a, b, c, d, e, g, rfl⟩ := hv r (by simp)
    rw [List.flatMap_cons]
    exact .cons hL (ih fun r hr => hv r (by simp [hr]))

/-- C30 for variable data without fillers, manufacturer blocks and plain-text VIFs: parse then pack is the identity on
the payload.  Missing: the other payloads, for which it is false (`C30_violation`). -/
theorem C30_variable_partial (f g : Frame) (x : FrameData) (rs : List Rec) (hd : f.control &&& 0x40 = 0) (hci : f.ci = 0x72)
    (hs : f.dataSize ≤ 252) (h12 : 12 ≤ f.dataSize)
    (hv : ∀ r ∈ rs, r.Legal ∧ ∃ dif difes vif vifes data, r = .value dif difes vif [] vifes data ∧ ¬ PlainText vif)
    (hp : (payload f).drop 12 = rs.flatMap Rec.encode) :
    ∃ x' g', frameDataParse f x = .ok (0, x') ∧ internalPack g x' = .ok (0, g') ∧ payload g' = payload f := by
  have ht : Tiles ((payload f).drop 12) rs := by
    rw [hp]
    refine tiles_encode rs fun r hr => ⟨(hv r hr).1, ?_⟩
    obtain ⟨_, dif, difes, vif, vifes, data, rfl, _⟩ := hv r hr
    exact ⟨_, _, _, _, _, _, rfl⟩
  obtain ⟨v', h1, h2, h3, h3'⟩ := variableParse_complete f x.var hs h12 rs ht
  have hpar : frameDataParse f x = .ok (0, { x with type := DATA_VARIABLE, var := v' }) := by
    rw [(frameDataParse_cases f x).2.2 hd hci, if_neg (by omega), h1]
    rfl
  have hem : rs.flatMap Emitted = rs.flatMap Rec.encode := by
    clear hp ht h3 h1 h3'
    induction rs with
    | nil => rfl
    | cons r rs ih =>
      rw [List.flatMap_cons, List.flatMap_cons, ih fun r hr => hv r (by simp [hr])]
      obtain ⟨_, dif, difes, vif, vifes, data, rfl, hn⟩ := hv r (by simp)
      simp [Emitted, Rec.encode, hn]
  have hlen := congrArg List.length hp
  rw [List.length_drop] at hlen
  have hpl : (payload f).length = f.dataSize := by unfold payload; simp; omega
  obtain ⟨g', q1, q2, _⟩ := (internalPack_var g { x with type := DATA_VARIABLE, var := v' } rfl rs (payload f) h2
    (tiles_legal ht) h3).1 (by rw [hem]; omega)
  refine ⟨_, g', hpar, q1, ?_⟩
  rw [q2, hem, ← hp, List.take_append_drop]

example := C30_variable_partial (rsp 0x72 (hdr ++ [0x01, 0x13, 5])) Frame.zero FrameData.new [.value 0x01 [] 0x13 [] [] [5]] (by decide) rfl (by decide) (by decide)
  (by
    intro r h
    rw [List.mem_singleton] at h
    subst h
    exact ⟨by simp only [Rec.Legal, DataFits]; rw [if_neg (by decide)]; decide, _, _, _, _, _, rfl, by decide⟩)
  (by decide +kernel)

/-- C30 for fixed data: always the identity on the payload. -/
theorem C30_fixed (f g : Frame) (x x' : FrameData) (hci : f.ci = 0x73) (h : frameDataParse f x = .ok (0, x')) :
    ∃ g', internalPack g x' = .ok (0, g') ∧ payload g' = payload f := by
  obtain ⟨c1, c2, _⟩ := frameDataParse_cases f x
  by_cases hd : f.control &&& 0x40 = 0
  · rw [c2 hd hci] at h
    split at h
    · simp at h
    · rw [bind_eq_ok] at h
      obtain ⟨⟨c, y⟩, hp, h⟩ := h
      simp at h
      obtain ⟨rfl, rfl⟩ := h
      unfold fixedParse at hp
      split at hp
      · simp at hp
      · rename_i h16
        have hl : f.data.bytes.length = 252 := by simp
        obtain ⟨a, b, c, e, a5, g6, i, j, k, m, n, o, t, ht⟩ := split12 f.data.bytes (by omega)
        rw [ht] at hl
        simp at hl
        obtain ⟨p, t, rfl⟩ := List.exists_cons_of_length_pos (show 0 < t.length by omega); simp at hl
        obtain ⟨q, t, rfl⟩ := List.exists_cons_of_length_pos (show 0 < t.length by omega); simp at hl
        obtain ⟨r, t, rfl⟩ := List.exists_cons_of_length_pos (show 0 < t.length by omega); simp at hl
        obtain ⟨s, t, rfl⟩ := List.exists_cons_of_length_pos (show 0 < t.length by omega)
        unfold Buf.rd rd at hp
        rw [ht] at hp
        simp at hp
        subst hp
        unfold internalPack
        rw [if_neg (show ¬ DATA_FIXED = DATA_ERROR by decide), if_pos rfl]
        simp only
        obtain ⟨g', q1, q2, q3, q4⟩ := pushAll_ok { g with dataSize := 0 } ([a, b, c, e] ++ [a5, g6, i, j] ++ [k, m, n, o] ++ [p, q, r, s]) (by simp)
        refine ⟨g', ?_, ?_⟩
        · show (do let f ← pushAll _ _; _) = _
          simp only [Buf.of4]
          rw [q1]; rfl
        · rw [q2]; simp [payload]
          have : f.dataSize = 16 := by omega
          rw [this, ht]; rfl
  · rw [c1 hd] at h; simp at h

example := C30_fixed (rsp 0x73 [1, 2, 3, 4, 5, 6, 7, 8, 9, 10, 11, 12, 13, 14, 15, 16]) Frame.zero FrameData.new _ rfl rfl

/-- C30 for error frames with one payload byte. -/
theorem C30_error (f g : Frame) (x x' : FrameData) (hci : f.ci = 0x70) (h1 : f.dataSize = 1) (h : frameDataParse f x = .ok (0, x')) :
    ∃ g', internalPack g x' = .ok (0, g') ∧ payload g' = payload f := by
  by_cases hd : f.control &&& 0x40 = 0
  · rw [frameDataParse_error f x hd hci] at h
    injection h with h
    injection h with _ h
    subst h
    have hp : payload f = [(payload f).headD 0] := by
      have hl : (payload f).length = 1 := by unfold payload; simp; omega
      generalize payload f = l at *
      match l with
      | [a] => rfl
    obtain ⟨g', q1, q2, _⟩ := pushAll_ok { g with dataSize := 0 } [(payload f).headD 0] (by simp)
    refine ⟨g', ?_, by rw [q2, ← hp]; simp [payload]⟩
    unfold internalPack
    rw [if_pos rfl]
    simp only
    have e : UInt8.ofNat ((((payload f).headD 0).toNat : Int) % 256).toNat = (payload f).headD 0 := by
      have h := UInt8.toNat_lt ((payload f).headD 0)
      have e2 : ((((payload f).headD 0).toNat : Int) % 256).toNat = ((payload f).headD 0).toNat := by omega
      rw [e2]; simp
    have one : ∀ (f : Frame) b, push f b = pushAll f [b] := by
      intro f b; simp only [pushAll]; cases push f b <;> rfl
    rw [e, one, q1]; rfl
  · rw [(frameDataParse_cases f x).1 hd] at h; simp at h

example := C30_error (rsp 0x70 [3]) Frame.zero FrameData.new _ rfl rfl rfl

/-- C30 is false: a filler is dropped, manufacturer data get an extra VIF byte, a plain-text unit is lost, an error frame
with an empty payload grows; and a full 252-byte frame makes the packer write behind the payload array. -/
theorem C30_violation :
    repack (rsp 0x72 (hdr ++ [0x2F])) = .ok (some hdr) ∧
    repack (rsp 0x72 (hdr ++ [0x0F, 7])) = .ok (some (hdr ++ [0x0F, 0, 7])) ∧
    repack (rsp 0x72 (hdr ++ [0x01, 0x7C, 1, 0x41, 5])) = .ok (some (hdr ++ [0x01, 0x7C, 5])) ∧
    repack (rsp 0x70 []) = .ok (some [0]) ∧
    repack (rsp 0x70 [1, 2]) = .ok (some [1]) ∧
    repack (rsp 0x72 (hdr ++ [0, 0, 0, 0, 0, 0, 0x0F] ++ List.replicate 233 1)) = .error (.oobWrite 252 252) := by
  refine ⟨?_, ?_, ?_, ?_, ?_, ?_⟩ <;> decide +kernel

example : repack (rsp 0x72 (hdr ++ [0x01, 0x13, 5, 0x8C, 0x10, 0x93, 0x01, 1, 2, 3, 4])) =
    .ok (some (hdr ++ [0x01, 0x13, 5, 0x8C, 0x10, 0x93, 0x01, 1, 2, 3, 4])) := by decide +kernel
example : repack (rsp 0x73 [1, 2, 3, 4, 5, 6, 7, 8, 9, 10, 11, 12, 13, 14, 15, 16]) =
    .ok (some [1, 2, 3, 4, 5, 6, 7, 8, 9, 10, 11, 12, 13, 14, 15, 16]) := by decide +kernel

/-! ### C31 -/

theorem dif_mkRec (r : Rec) : (mkRec r).dif = difOf r := by cases r <;> rfl

/-- C31: `more_records_follow` is 1 iff the last delivered record has DIF 0x1F, else 0. -/
theorem C31_more_iff (f : Frame) (v v' : VarData) (hs : f.dataSize ≤ 252) (h : variableParse f v = .ok (0, v')) :
    v'.more = if ∃ r, v'.records.getLast? = some r ∧ r.dif = 0x1F then 1 else 0 := by
  obtain ⟨h12, hh, rs, ht, hr, hn, hm⟩ := variableParse_sound f v v' hs h
  rw [hm]
  have e : (rs.any (fun r => difOf r == 0x1F) = true) ↔ ∃ r, v'.records.getLast? = some r ∧ r.dif = 0x1F := by
    rw [tiles_more ht, endsWithMore_dif ht, hr, List.getLast?_map]
    constructor
    · rintro ⟨r, h1, h2⟩; exact ⟨mkRec r, by rw [h1]; rfl, by rw [dif_mkRec]; exact h2⟩
    · rintro ⟨m, h1, h2⟩
      cases hl : rs.getLast? with
      | none => rw [hl] at h1; simp at h1
      | some r => rw [hl] at h1; simp at h1; subst h1; exact ⟨r, rfl, by rw [← dif_mkRec]; exact h2⟩
  by_cases hc : rs.any (fun r => difOf r == 0x1F) = true
  · rw [if_pos hc, if_pos (e.mp hc)]
  · rw [if_neg hc, if_neg fun h => hc (e.mpr h)]

example := C31_more_iff (rsp 0x72 (hdr ++ [0x01, 0x13, 0x05, 0x1F])) VarData.zero _ (by decide) rfl

/-- C31: records with DIF 0x0F / 0x1F can only be the last one. -/
theorem C31_special_last (f : Frame) (v v' : VarData) (hs : f.dataSize ≤ 252) (h : variableParse f v = .ok (0, v')) :
    ∀ r ∈ v'.records.dropLast, r.dif ≠ 0x0F ∧ r.dif ≠ 0x1F := by
  obtain ⟨h12, hh, rs, ht, hr, hn, hm⟩ := variableParse_sound f v v' hs h
  intro r hm
  rw [hr, ← List.map_dropLast] at hm
  obtain ⟨r', h', rfl⟩ := List.mem_map.mp hm
  rw [dif_mkRec]
  exact tiles_value ht r' h'

example : ∃ v', variableParse (rsp 0x72 (hdr ++ [0x01, 0x13, 0x05, 0x1F])) VarData.zero = .ok (0, v') ∧ v'.more = 1 := ⟨_, rfl, by decide +kernel⟩
example : ∃ v', variableParse (rsp 0x72 (hdr ++ [0x01, 0x13, 0x1F, 0x0F])) VarData.zero = .ok (0, v') ∧ v'.more = 0 := ⟨_, rfl, by decide +kernel⟩

/-! ### C32 -/

/-- C32: bounds of every delivered record. -/
theorem C32_bounds (f : Frame) (v v' : VarData) (hs : f.dataSize ≤ 252) (h : variableParse f v = .ok (0, v')) :
    ∀ r ∈ v'.records, r.ndife ≤ 10 ∧ r.nvife ≤ 10 ∧ r.dataLen ≤ 234 ∧ (r.dif.toNat % 16 = 0xD → 1 ≤ r.dataLen) := by
  obtain ⟨h12, hh, rs, ht, hr, hn, hm⟩ := variableParse_sound f v v' hs h
  intro r hm
  rw [hr] at hm
  obtain ⟨r', h', rfl⟩ := List.mem_map.mp hm
  have hL := tiles_legal ht r' h'
  obtain ⟨b1, b2, b3⟩ := mkRec_bounds r' hL
  refine ⟨b1, b2, b3, ?_⟩
  cases r' with
  | special dif data =>
    intro h
    rcases hL.1 with rfl | rfl <;> simp [mkRec] at h
  | value dif difes vif text vifes data =>
    intro h
    obtain ⟨a1, a2, a3, a4, a5, a6, a7, a8, a9, a10⟩ := hL
    unfold DataFits at a10
    rw [if_pos (show dif.toNat % 16 = 0xD from h)] at a10
    obtain ⟨lv, rest, rfl, _⟩ := a10
    simp [mkRec]

example := C32_bounds (rsp 0x72 (hdr ++ [0xC1, 0xF5, 0x32, 0x13, 5])) VarData.zero _ (by decide) rfl

/-! ### C33 -/

/-- C33: tariff and device are exactly the assembled bits, -1 without DIFE. -/
theorem C33_tariff_device (r : Record) (h : r.ndife ≤ 10) :
    tariff r = .ok (if r.ndife = 0 then -1 else (tariffOf (r.dife.bytes.take r.ndife) : Int)) ∧
    device r = .ok (if r.ndife = 0 then -1 else (deviceOf (r.dife.bytes.take r.ndife) : Int)) :=
  ⟨tariff_eq r h, device_eq r h⟩

/-- two DIFEs -/
example := C33_tariff_device { Record.new with dif := 0xC1, ndife := 2, dife := ⟨[0xF5, 0x32, 0, 0, 0, 0, 0, 0, 0, 0], rfl⟩ } (by decide)

/-- C33: the storage number is exact when there are at most 8 DIFEs and the number is below 2^31.
Missing: the other records a parse can deliver; for each of them the computation is undefined (`C33_storage_violation`). -/
theorem C33_storage_partial (r : Record) (h : r.ndife ≤ 8) (hv : storageOf r.dif (r.dife.bytes.take r.ndife) < 2 ^ 31) :
    storageNumber r = .ok (storageOf r.dif (r.dife.bytes.take r.ndife) : Int) := by
  rw [storageNumber_eq r (by omega), if_pos ⟨h, hv⟩]

example : storageNumber { Record.new with dif := 0xC1, ndife := 2, dife := ⟨[0xF5, 0x32, 0, 0, 0, 0, 0, 0, 0, 0], rfl⟩ } = .ok 75 :=
  C33_storage_partial { Record.new with dif := 0xC1, ndife := 2, dife := ⟨[0xF5, 0x32, 0, 0, 0, 0, 0, 0, 0, 0], rfl⟩ } (by decide) (by decide)

/-- C33 is false for every record with 9 or 10 DIFEs and every storage number of 2^31 or more: an `int` shift overflows. -/
theorem C33_storage_violation (r : Record) (h : r.ndife ≤ 10)
    (hv : 9 ≤ r.ndife ∨ 2 ^ 31 ≤ storageOf r.dif (r.dife.bytes.take r.ndife)) : storageNumber r = .error .shift := by
  rw [storageNumber_eq r (by omega), if_neg (by omega)]

/-- ... and such records are delivered by the parser. -/
example : ∃ r v', variableParse (rsp 0x72 (hdr ++ [0x81, 0x80, 0x80, 0x80, 0x80, 0x80, 0x80, 0x80, 0x80, 0x00, 0x13, 5])) VarData.zero =
    .ok (0, v') ∧ v'.records = [r] ∧ r.ndife = 9 ∧ storageNumber r = .error .shift :=
  ⟨_, _, rfl, rfl, by decide +kernel, by decide +kernel⟩
example : ∃ r v', variableParse (rsp 0x72 (hdr ++ [0xC1, 0xF5, 0x32, 0x13, 5])) VarData.zero =
    .ok (0, v') ∧ v'.records = [r] ∧ storageNumber r = .ok 75 ∧ tariff r = .ok 15 ∧ device r = .ok 1 :=
  ⟨_, _, rfl, rfl, by decide +kernel, by decide +kernel, by decide +kernel⟩

/-! ### C34 -/

/-- C34: the fixed structure is accepted iff the payload has 16 bytes, and each field is at its offset. -/
theorem C34_fixed_iff (f : Frame) (x : FixedData) :
    (f.dataSize = 16 → ∃ y, fixedParse f x = .ok (0, y) ∧
      y.idBcd.bytes ++ [y.txCnt, y.status, y.cnt1Type, y.cnt2Type] ++ y.cnt1Val.bytes ++ y.cnt2Val.bytes = payload f) ∧
    (f.dataSize ≠ 16 → fixedParse f x = .ok (-1, x)) := by
  constructor
  · intro h16
    unfold fixedParse
    rw [if_neg (by omega)]
    have hl : f.data.bytes.length = 252 := by simp
    obtain ⟨a, b, c, e, a5, g6, i, j, k, m, n, o, t, ht⟩ := split12 f.data.bytes (by omega)
    rw [ht] at hl
    simp at hl
    obtain ⟨p, t, rfl⟩ := List.exists_cons_of_length_pos (show 0 < t.length by omega); simp at hl
    obtain ⟨q, t, rfl⟩ := List.exists_cons_of_length_pos (show 0 < t.length by omega); simp at hl
    obtain ⟨r, t, rfl⟩ := List.exists_cons_of_length_pos (show 0 < t.length by omega); simp at hl
    obtain ⟨s, t, rfl⟩ := List.exists_cons_of_length_pos (show 0 < t.length by omega)
    unfold Buf.rd rd payload
    rw [ht, h16]
    exact ⟨_, rfl, rfl⟩
  · intro h; unfold fixedParse; rw [if_pos h]

/-- C34: and packing restores the 16 bytes (into any frame object). -/
theorem C34_fixed_roundtrip (f g : Frame) (x : FixedData) (y : FrameData) (h : fixedParse f x = .ok (0, y.fix)) (ht : y.type = DATA_FIXED) :
    ∃ g', internalPack g y = .ok (0, g') ∧ payload g' = payload f := by
  obtain ⟨h1, h2⟩ := C34_fixed_iff f x
  by_cases h16 : f.dataSize = 16
  · obtain ⟨z, hz, hb⟩ := h1 h16
    rw [h] at hz
    injection hz with hz
    injection hz with _ hz
    rw [← hz] at hb
    obtain ⟨g', q1, q2, _⟩ := pushAll_ok { g with dataSize := 0 } (payload f) (by simp [payload]; omega)
    refine ⟨g', ?_, by rw [q2]; simp [payload]⟩
    unfold internalPack
    rw [if_neg (by rw [ht]; decide), if_pos ht]
    rw [hb, q1]; rfl
  · rw [h2 h16] at h; simp at h

example := C34_fixed_roundtrip (rsp 0x73 [1, 2, 3, 4, 5, 6, 7, 8, 9, 10, 11, 12, 13, 14, 15, 16]) Frame.zero FixedData.zero
  { FrameData.new with type := DATA_FIXED, fix := ((fixedParse (rsp 0x73 [1, 2, 3, 4, 5, 6, 7, 8, 9, 10, 11, 12, 13, 14, 15, 16]) FixedData.zero).toOption.get rfl).2 } (by decide +kernel) rfl

/-! ### C35 -/

/-- C35: master-to-slave frames and unknown CI bytes are refused and nothing is touched. -/
theorem C35_refuse (f : Frame) (x : FrameData) (h : f.control &&& 0x40 ≠ 0 ∨ f.ci ∉ [0x70, 0x72, 0x73]) :
    frameDataParse f x = .ok (-1, x) := by
  unfold frameDataParse
  by_cases hd : f.control &&& MASK_DIR = MASK_DIR_S2M
  · have h2 : f.ci ∉ [0x70, 0x72, 0x73] := by
      rcases h with h | h
      · exact absurd hd h
      · exact h
    simp at h2
    rw [if_pos hd, if_neg h2.1, if_neg h2.2.2, if_neg h2.2.1]
  · rw [if_neg hd]

/-- a telegram from the master, and an unknown CI field -/
example := C35_refuse { rsp 0x72 hdr with control := 0x53 } FrameData.new (.inl (by decide))
example := C35_refuse (rsp 0x7A hdr) FrameData.new (.inr (by decide))

/-- C35: a general application error frame delivers the ERROR type and its first payload byte, 0 without payload. -/
theorem C35_error (f : Frame) (x : FrameData) (hd : f.control &&& 0x40 = 0) (hci : f.ci = 0x70) :
    frameDataParse f x = .ok (0, { x with type := DATA_ERROR, error := (((payload f).headD 0).toNat : Int) }) :=
  frameDataParse_error f x hd hci

/-- C35: fixed and variable responses set the type of their CI and return their parser's verdict; an empty payload is
refused with nothing touched. -/
theorem C35_dispatch (f : Frame) (x : FrameData) (hd : f.control &&& 0x40 = 0) :
    (f.ci = 0x73 → f.dataSize ≠ 0 → ∀ c y, fixedParse f x.fix = .ok (c, y) →
      frameDataParse f x = .ok (c, { x with type := DATA_FIXED, fix := y })) ∧
    (f.ci = 0x72 → f.dataSize ≠ 0 → ∀ c y, variableParse f x.var = .ok (c, y) →
      frameDataParse f x = .ok (c, { x with type := DATA_VARIABLE, var := y })) ∧
    (f.ci ≠ 0x70 → f.dataSize = 0 → frameDataParse f x = .ok (-1, x)) := by
  have hd' : f.control &&& MASK_DIR = MASK_DIR_S2M := hd
  refine ⟨?_, ?_, ?_⟩
  · intro hci h0 c y hp
    rw [(frameDataParse_cases f x).2.1 hd hci, if_neg h0, hp]; rfl
  · intro hci h0 c y hp
    rw [(frameDataParse_cases f x).2.2 hd hci, if_neg h0, hp]; rfl
  · intro hci h0
    unfold frameDataParse
    rw [if_pos hd', if_neg hci]
    by_cases h3 : f.ci = 0x73
    · rw [if_pos h3, if_pos h0]
    · rw [if_neg h3]
      by_cases h2 : f.ci = 0x72
      · rw [if_pos h2, if_pos h0]
      · rw [if_neg h2]

example : frameDataParse (rsp 0x70 [3]) FrameData.new = .ok (0, { FrameData.new with type := 3, error := 3 }) := by decide +kernel

/-! ### C36 -/

/-- C36: field width of EN 1434-3 for every DIF; only the low nibble counts. -/
theorem C36_width (dif : Byte) : difLength dif = width dif ∧ ∀ dif', dif'.toNat % 16 = dif.toNat % 16 → difLength dif' = difLength dif := by
  refine ⟨difLength_eq dif, fun d' h => ?_⟩
  rw [difLength_eq, difLength_eq]; unfold width; rw [h]

/-- C36: a variable-length field takes the standard byte count plus one for the LVAR byte, for every LVAR except
0xC1..0xC9 and 0xD1..0xD9 (reserved LVARs count as empty).  Missing: those, where it is false. -/
theorem C36_lvar_partial (b : Byte) (h : ¬ (0xC1 ≤ b.toNat ∧ b.toNat ≤ 0xC9)) (h2 : ¬ (0xD1 ≤ b.toNat ∧ b.toNat ≤ 0xD9)) :
    lvarLength b (difLength 0x0D) = (lvarStandard b).getD 0 + 1 := by
  have : ∀ b : Byte, ¬ (0xC1 ≤ b.toNat ∧ b.toNat ≤ 0xC9) → ¬ (0xD1 ≤ b.toNat ∧ b.toNat ≤ 0xD9) →
    lvarLength b (difLength 0x0D) = (lvarStandard b).getD 0 + 1 := forall_byte (by decide +kernel)
  exact this b h h2

example := C36_lvar_partial 0xE5 (by decide) (by decide)

/-- C36 is false for BCD LVARs: the library takes twice the bytes. -/
theorem C36_lvar_violation (b : Byte) (h : (0xC1 ≤ b.toNat ∧ b.toNat ≤ 0xC9) ∨ (0xD1 ≤ b.toNat ∧ b.toNat ≤ 0xD9)) :
    ∃ n, lvarStandard b = some n ∧ lvarLength b (difLength 0x0D) = 2 * n + 1 ∧ n ≠ 0 := by
  have : ∀ b : Byte, ((0xC1 ≤ b.toNat ∧ b.toNat ≤ 0xC9) ∨ (0xD1 ≤ b.toNat ∧ b.toNat ≤ 0xD9)) →
    (lvarStandard b).isSome ∧ lvarLength b (difLength 0x0D) = 2 * (lvarStandard b).getD 0 + 1 ∧ (lvarStandard b).getD 0 ≠ 0 :=
      forall_byte (by decide +kernel)
  obtain ⟨h1, h2, h3⟩ := this b h
  obtain ⟨n, hn⟩ := Option.isSome_iff_exists.mp h1
  rw [hn] at h2 h3
  exact ⟨n, hn, h2, h3⟩

end Mbus
