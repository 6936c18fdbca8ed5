import Verif.Lemmas.XmlDoc
/- Which faults the XML functions can run into. -/
namespace Mbus
open Spec

/-- No access to freed memory. -/
def Calm {α : Type} (c : C α) : Prop := c ≠ .error .useAfterFree

theorem Calm.ok {α : Type} (a : α) : Calm (.ok a : C α) := by intro h; cases h
theorem Runs.calm {α : Type} {c : C α} {Q : α → Prop} (h : Runs c Q) : Calm c := by
  obtain ⟨a, rfl, _⟩ := h
  exact .ok a

theorem Calm.bind {α β : Type} {c : C α} {k : α → C β} (h : Calm c) (hk : ∀ a, c = .ok a → Calm (k a)) : Calm (c >>= k) := by
  cases c with
  | ok a => rw [ok_bind]; exact hk a rfl
  | error e => intro he; rw [error_bind] at he; exact h (by injection he with he; rw [he])

theorem calm_error {α : Type} {e : Fault} (h : e ≠ .useAfterFree) : Calm (.error e : C α) := by
  intro he
  injection he with he
  exact h he

theorem calm_snprintf (d : List Byte) (p n : Nat) (s : List Byte) : Calm (snprintfAt d p n s) := by
  unfold snprintfAt
  split
  · exact .ok _
  · dsimp only
    split
    · exact .ok _
    · exact calm_error (by simp)

theorem calm_put (b : XBuf) (s : List Byte) : Calm (b.put s) := by
  unfold XBuf.put
  split
  · exact calm_error (by simp)
  · exact (calm_snprintf _ _ _ _).bind fun _ _ => .ok _

theorem calm_int32 (z : Int) : Calm (int32 z) := by
  unfold int32
  split
  · exact .ok _
  · exact calm_error (by simp)

theorem calm_storage (r : Record) (h : r.ndife ≤ 10) : Calm (storageNumber r) := by
  rw [storageNumber_eq r h]
  split
  · exact .ok _
  · exact calm_error (by simp)

theorem calm_tariff (b : XBuf) (r : Record) (h : r.ndife ≤ 10) : Calm (tariffXml b r) := by
  obtain ⟨h1, h2⟩ := C33_tariff_device r h
  unfold tariffXml
  rw [h1, ok_bind]
  generalize (if r.ndife = 0 then (-1 : Int) else (tariffOf (r.dife.bytes.take r.ndife) : Int)) = z
  split
  · refine (calm_put _ _).bind fun _ _ => ?_
    rw [h2, ok_bind]
    exact calm_put _ _
  · exact .ok _

theorem calm_open (b : XBuf) (c f : Int) : Calm (recordOpenXml b c f) := by
  unfold recordOpenXml
  split <;> exact calm_put _ _

theorem calm_stamp (b : XBuf) (s : Option (List Byte)) : Calm (stampXml b s) := by
  cases s with
  | none => exact .ok _
  | some t => exact calm_put _ _

theorem Delivered.unit_ok {r : Record} (h : Delivered r) : ∃ u, recordUnit r = .ok u ∧ (0 : Byte) ∉ u := by
  obtain ⟨⟨c, hc⟩, _⟩ := h.unit
  obtain ⟨t, ht⟩ := vibUnitText_total r c hc
  refine ⟨snp 128 (snp 256 t), ?_, snp_nonul _ _ (snp_nonul _ _ (vibUnitText_nonul r t ht))⟩
  unfold recordUnit vibUnitLookup
  rw [ht]
  rfl

theorem calm_fields {e : List Byte} (he : e.length = 768) (b : XBuf) {r : Record} (h : Delivered r) :
    Calm (recordFieldsXml e b r) ∧ ∀ q, recordFieldsXml e b r = .ok q → q.2.length = 768 := by
  have h10 : r.ndife ≤ 10 := h.bounds.2.2
  obtain ⟨u, hu, hu0⟩ := h.unit_ok
  unfold recordFieldsXml
  split
  · refine ⟨(calm_put _ _).bind fun _ _ => .ok _, fun q hq => ?_⟩
    obtain ⟨_, _, hq⟩ := bind_eq_ok.mp hq
    injection hq with hq
    rw [← hq]; exact he
  · split
    · refine ⟨(calm_put _ _).bind fun _ _ => .ok _, fun q hq => ?_⟩
      obtain ⟨_, _, hq⟩ := bind_eq_ok.mp hq
      injection hq with hq
      rw [← hq]; exact he
    · rename_i h0 h1
      have hsp : ¬ Special r := fun c => c.elim h0 h1
      rw [functionLabel_ordinary r hsp]
      obtain ⟨p, hp, hp1, _⟩ := encodeInto_any e (functionLabel r) (by omega) (functionLabel_short r).2.1
      rw [hp, ok_bind]
      dsimp only
      rw [hu]
      obtain ⟨q, hq, hq1, _⟩ := encodeInto_any p.1 u (by omega) hu0
      constructor
      · refine (calm_put _ _).bind fun b1 _ => (calm_storage r h10).bind fun _ _ => (calm_put _ _).bind fun b2 _ =>
          (calm_tariff b2 r h10).bind fun b3 _ => ?_
        rw [ok_bind, hq, ok_bind]
        exact (calm_put _ _).bind fun _ _ => .ok _
      · intro z hz
        obtain ⟨_, _, hz⟩ := bind_eq_ok.mp hz
        obtain ⟨_, _, hz⟩ := bind_eq_ok.mp hz
        obtain ⟨_, _, hz⟩ := bind_eq_ok.mp hz
        obtain ⟨_, _, hz⟩ := bind_eq_ok.mp hz
        rw [ok_bind, hq, ok_bind] at hz
        obtain ⟨_, _, hz⟩ := bind_eq_ok.mp hz
        injection hz with hz
        rw [← hz]
        dsimp only
        omega

theorem calm_record (junk : Nat → Byte) {r : Record} (h : Delivered r) (stamp : Option (List Byte)) (c f : Int) :
    Calm (recordXml junk r stamp c f) := by
  obtain ⟨h1, h2, _⟩ := h.bounds
  unfold recordXml
  refine (calm_open _ _ _).bind fun b1 _ => ?_
  obtain ⟨k1, k2⟩ := calm_fields (e := malloc (scratch junk 1) 768) (by simp) b1 h
  refine k1.bind fun q hq => ?_
  obtain ⟨b2, e⟩ := q
  have he := k2 _ hq
  dsimp only at he ⊢
  rw [recordValue_shown _ r (by simp) h1 h2, ok_bind]
  obtain ⟨p, hp, _⟩ := encodeInto_any e _ (by omega) (upToNul_nonul (shown r))
  rw [hp, ok_bind]
  refine (calm_put _ _).bind fun b3 _ => (calm_stamp _ _).bind fun b4 _ => (calm_put _ _).bind fun b5 _ => ?_
  unfold cstr
  split
  · exact .ok _
  · exact calm_error (by simp)

theorem calm_records (junk : Nat → Nat → Byte) (f : Int) (rs : List Stamped) (h : ∀ p ∈ rs, Delivered p.1) (cnt : Int) (b : XBuf) :
    Calm (recordsXml junk f rs cnt b) := by
  induction rs generalizing cnt b with
  | nil => exact .ok _
  | cons p rs ih =>
    obtain ⟨r, stamp⟩ := p
    simp only [recordsXml]
    exact (calm_record _ (h (r, stamp) (List.mem_cons_self ..)) _ _ _).bind fun _ _ => (calm_put _ _).bind fun _ _ =>
      (calm_int32 _).bind fun _ _ => ih (fun q hq => h q (List.mem_cons_of_mem _ hq)) _ _

/-- What parsing a telegram can give. -/
inductive ParseOutcome (f : Frame) (y : FrameData) : C (Int × FrameData) → Prop
  | fault (e : Fault) : e ≠ .useAfterFree → ParseOutcome f y (.error e)
  | refused (x : FrameData) : ParseOutcome f y (.ok (-1, x))
  | varData (v : VarData) : f.ci = 0x72 → variableParse f y.var = .ok (0, v) →
      ParseOutcome f y (.ok (0, { y with type := DATA_VARIABLE, var := v }))
  | other (x : FrameData) : f.ci = 0x70 ∨ f.ci = 0x73 → x.type = DATA_ERROR ∨ x.type = DATA_FIXED → x.var = y.var →
      ParseOutcome f y (.ok (0, x))

theorem parse_outcome (f : Frame) (hs : f.dataSize ≤ 252) (y : FrameData) : ParseOutcome f y (frameDataParse f y) := by
  by_cases hd : f.control &&& 0x40 = 0
  · by_cases h0 : f.ci = 0x70
    · rw [frameDataParse_error f y hd h0]
      exact .other _ (.inl h0) (.inl rfl) rfl
    · by_cases h3 : f.ci = 0x73
      · rw [(frameDataParse_cases f y).2.1 hd h3]
        split
        · exact .refused _
        · obtain ⟨k1, k2⟩ := C34_fixed_iff f y.fix
          by_cases h16 : f.dataSize = 16
          · obtain ⟨z, hz, _⟩ := k1 h16
            rw [hz, ok_bind]
            exact .other _ (.inr h3) (.inr rfl) rfl
          · rw [k2 h16, ok_bind]
            exact .refused _
      · by_cases h2 : f.ci = 0x72
        · rw [(frameDataParse_cases f y).2.2 hd h2]
          split
          · exact .refused _
          · cases hv : variableParse f y.var with
            | error e =>
              rw [error_bind]
              refine .fault e ?_
              rcases variableParse_fault f y.var hs e hv with h | h | h <;> rw [h.1] <;> simp
            | ok q =>
              obtain ⟨c, v⟩ := q
              rw [ok_bind]
              rcases variableParse_code f y.var c v hv with rfl | rfl
              · exact .varData v h2 hv
              · exact .refused _
        · rw [C35_refuse f y (.inr (by simp [h0, h2, h3]))]
          exact .refused _
  · rw [C35_refuse f y (.inl hd)]
    exact .refused _

theorem calm_parse (f : Frame) (hs : f.dataSize ≤ 252) (y : FrameData) : Calm (frameDataParse f y) := by
  have h := parse_outcome f hs y
  generalize frameDataParse f y = c at h
  cases h with
  | fault e he => exact calm_error he
  | refused x => exact .ok _
  | varData v _ _ => exact .ok _
  | other x _ _ _ => exact .ok _

theorem parsed_delivered {f : Frame} (hs : f.dataSize ≤ 252) {v v' : VarData} (h : variableParse f v = .ok (0, v')) :
    ∀ r ∈ v'.records, Delivered r := fun _ hr => ⟨f, v, v', hs, h, hr⟩

theorem calm_chain (junk : Nat → Nat → Byte) (ts : List Telegram) (h : ∀ t ∈ ts, t.1.dataSize ≤ 252 ∧ t.1.ci ≠ 0x70 ∧ t.1.ci ≠ 0x73)
    (x : FrameData) (freed : Bool) (cnt fc : Int) (b : XBuf) : Calm (chainXml junk ts x freed cnt fc b) := by
  induction ts generalizing x freed cnt fc b with
  | nil => exact (calm_put _ _).bind fun _ _ => .ok _
  | cons t ts ih =>
    obtain ⟨f, stamp⟩ := t
    obtain ⟨hs, h0, h3⟩ := h _ (List.mem_cons_self ..)
    unfold chainXml
    have ho := parse_outcome f hs x
    generalize frameDataParse f x = c at ho
    cases ho with
    | fault e he => rw [error_bind]; exact calm_error he
    | refused y => rw [ok_bind]; exact .ok _
    | other y hc => exact absurd hc (fun h => h.elim h0 h3)
    | varData v _ hv =>
      rw [ok_bind]
      dsimp only
      rw [if_neg (by decide)]
      have e : (freed && decide (DATA_VARIABLE ≠ DATA_VARIABLE)) = false := by simp
      rw [e, if_neg (by decide)]
      refine (calm_records _ _ _ ?_ _ _).bind fun q _ => ?_
      · intro p hp
        obtain ⟨r, hr, rfl⟩ := List.mem_map.mp hp
        exact parsed_delivered hs hv _ hr
      · exact (calm_int32 _).bind fun _ _ => ih (fun t ht => h t (List.mem_cons_of_mem _ ht)) _ _ _ _ _

/-- Chains whose later telegrams are neither fixed-data nor error telegrams never touch a freed record. -/
theorem calm_frame (junk0 : Nat → Byte) (junk : Nat → Nat → Byte) (t : Telegram) (ts : List Telegram) (ht : t.1.dataSize ≤ 252)
    (h : ∀ t ∈ ts, t.1.dataSize ≤ 252 ∧ t.1.ci ≠ 0x70 ∧ t.1.ci ≠ 0x73)
    (he : ∀ e, Calm (errorXml junk0 e)) (hfx : ∀ x, Calm (fixedXml junk0 x)) : Calm (frameXml junk0 junk t ts) := by
  unfold frameXml
  have ho := parse_outcome t.1 ht FrameData.new
  generalize frameDataParse t.1 FrameData.new = c at ho
  cases ho with
  | fault e he => rw [error_bind]; exact calm_error he
  | refused y => rw [ok_bind]; exact .ok _
  | other y hc hty _ =>
    rw [ok_bind]
    dsimp only
    rw [if_neg (by decide)]
    split
    · exact (he _).bind fun _ _ => .ok _
    · split
      · exact (hfx _).bind fun _ _ => .ok _
      · rename_i h1 h2
        exact absurd hty (fun h => h.elim h1 h2)
  | varData v _ hv =>
    rw [ok_bind]
    dsimp only
    rw [if_neg (by decide), if_neg (by decide), if_neg (by decide), if_pos rfl]
    refine (calm_put _ _).bind fun _ _ => (calm_put _ _).bind fun _ _ => ?_
    obtain ⟨p, hp, hx, _⟩ := headerXml_runs junk0 v.header
    rw [hx, ok_bind]
    refine (calm_put _ _).bind fun _ _ => (calm_records _ _ _ ?_ _ _).bind fun q _ => ?_
    · intro p hp
      obtain ⟨r, hr, rfl⟩ := List.mem_map.mp hp
      exact parsed_delivered ht hv r hr
    · exact (calm_int32 _).bind fun _ _ => calm_chain junk ts h _ _ _ _ _

/-- A telegram that is accepted on its own is accepted whatever was parsed before. -/
theorem accepted_any {f : Frame} (hs : f.dataSize ≤ 252) {x : FrameData} (h : frameDataParse f FrameData.new = .ok (0, x)) (y : FrameData) :
    ∃ x', frameDataParse f y = .ok (0, x') := by
  by_cases hv : x.type = DATA_VARIABLE
  · obtain ⟨v, _, _, hp, _⟩ := Reads.any ⟨hs, x, h, hv, rfl, rfl⟩ y
    exact ⟨_, hp⟩
  · have ho := parse_outcome f hs FrameData.new
    rw [h] at ho
    cases ho with
    | varData v _ _ => exact absurd rfl hv
    | other _ hc ht _ =>
      by_cases hd : f.control &&& 0x40 = 0
      · rcases hc with hc | hc
        · exact ⟨_, frameDataParse_error f y hd hc⟩
        · rw [(frameDataParse_cases f FrameData.new).2.1 hd hc] at h
          rw [(frameDataParse_cases f y).2.1 hd hc]
          split at h
          · simp at h
          · rename_i h0
            rw [if_neg h0]
            by_cases h16 : f.dataSize = 16
            · obtain ⟨z, hz, _⟩ := (C34_fixed_iff f y.fix).1 h16
              rw [hz, ok_bind]
              exact ⟨_, rfl⟩
            · rw [(C34_fixed_iff f FrameData.new.fix).2 h16, ok_bind] at h
              simp at h
      · rw [C35_refuse f FrameData.new (.inl hd)] at h
        simp at h

/-- After a first telegram whose records can be printed, the loop over the later telegrams runs. -/
theorem frameXml_first (junk0 : Nat → Byte) (junk : Nat → Nat → Byte) (t t2 : Telegram) (ts : List Telegram) (its : List Item) (h : VarHeader)
    (hread : Reads t.1 h (its.map (·.1))) (hst : ∀ it ∈ its, it.2.2 = t.2) (hr : ∀ it ∈ its, Ready it) (hc : its.length < 2 ^ 31) :
    ∃ x b, frameXml junk0 junk t (t2 :: ts) = chainXml junk (t2 :: ts) x (decide (its.map (·.1) ≠ [])) (its.length : Int) 1 b ∧
      x.var.records = [] := by
  obtain ⟨v, hv1, hv, hparse, _⟩ := hread.any FrameData.new
  subst hv1
  obtain ⟨p, hp, _⟩ := productName_plain v.header
  unfold frameXml
  rw [hparse, ok_bind]
  dsimp only
  rw [if_neg (by decide), if_neg (by decide), if_neg (by decide), if_pos rfl, hv, items_map its t.2 hst]
  have e : (if List.isEmpty (t2 :: ts) = true then (-1 : Int) else 0) = frameArg (some 0) := rfl
  rw [e]
  obtain ⟨p', hp', h1, h2, h3⟩ := headerXml_runs junk0 v.header
  obtain ⟨b1, e1, hb1⟩ := put_runs (holds_new (scratch junk0 3) 8192) XML_PI (by simp [XML_PI])
  obtain ⟨b2, e2, hb2⟩ := put_runs hb1.holds (cs! "<MBusData>\n\n") (by simp [XML_PI])
  obtain ⟨b3, e3, hb3⟩ := put_runs hb2.holds (slaveGroup v.header p' (mediumLookup v.header.medium)).render (by simp [XML_PI]; omega)
  rw [e1, ok_bind, e2, ok_bind, h1, ok_bind, e3, ok_bind]
  obtain ⟨⟨b4, c⟩, e4, e5, hb4⟩ := recordsXml_runs junk (some 0) (by simp) its hr 0 (by omega) b3 _
    ⟨8192, by decide, by simp [XML_PI]; omega, hb3⟩
  dsimp only at e5
  subst e5
  rw [show (0 : Int) = ((0 : Nat) : Int) from rfl, e4, ok_bind]
  dsimp only
  have e6 : int32 (frameArg (some 0) + 1) = .ok 1 := rfl
  rw [e6, ok_bind, Nat.zero_add]
  exact ⟨_, _, rfl, rfl⟩

/-- A chain that is printed loses nothing. -/
theorem chain_kept (junk : Nat → Nat → Byte) (ts : List Telegram) (x : FrameData) (freed : Bool) (cnt fc : Int) (b : XBuf) (o : XmlOut)
    (h : chainXml junk ts x freed cnt fc b = .ok o) : (o.text ≠ none ∧ o.lostBuffer = false ∧ o.lostRecords = []) ∨ (o.text = none ∧ o.lostBuffer = true) := by
  induction ts generalizing x freed cnt fc b with
  | nil =>
    unfold chainXml at h
    obtain ⟨b', _, h⟩ := bind_eq_ok.mp h
    injection h with h
    subst h
    exact .inl ⟨by simp, rfl, rfl⟩
  | cons t ts ih =>
    obtain ⟨f, stamp⟩ := t
    unfold chainXml at h
    obtain ⟨⟨rc, y⟩, _, h⟩ := bind_eq_ok.mp h
    dsimp only at h
    split at h
    · injection h with h
      subst h
      exact .inr ⟨rfl, rfl⟩
    · split at h
      · cases h
      · obtain ⟨q, _, h⟩ := bind_eq_ok.mp h
        obtain ⟨c, _, h⟩ := bind_eq_ok.mp h
        exact ih _ _ _ _ _ h

theorem frame_kept (junk0 : Nat → Byte) (junk : Nat → Nat → Byte) (t : Telegram) (ts : List Telegram) (o : XmlOut)
    (h : frameXml junk0 junk t ts = .ok o) (ht : o.text ≠ none) : o.lostBuffer = false ∧ o.lostRecords = [] := by
  unfold frameXml at h
  obtain ⟨⟨rc, y⟩, _, h⟩ := bind_eq_ok.mp h
  dsimp only at h
  split at h
  · injection h with h
    subst h
    exact absurd rfl ht
  split at h
  · obtain ⟨m, _, h⟩ := bind_eq_ok.mp h
    injection h with h
    subst h
    exact ⟨rfl, rfl⟩
  split at h
  · obtain ⟨m, _, h⟩ := bind_eq_ok.mp h
    injection h with h
    subst h
    exact ⟨rfl, rfl⟩
  split at h
  · obtain ⟨_, _, h⟩ := bind_eq_ok.mp h
    obtain ⟨_, _, h⟩ := bind_eq_ok.mp h
    obtain ⟨_, _, h⟩ := bind_eq_ok.mp h
    obtain ⟨_, _, h⟩ := bind_eq_ok.mp h
    obtain ⟨q, _, h⟩ := bind_eq_ok.mp h
    obtain ⟨_, _, h⟩ := bind_eq_ok.mp h
    rcases chain_kept _ _ _ _ _ _ _ _ h with h | h
    · exact h.2
    · exact absurd h.1 ht
  · injection h with h
    subst h
    exact absurd rfl ht

end Mbus
