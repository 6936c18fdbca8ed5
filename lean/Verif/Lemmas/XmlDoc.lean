import Verif.Spec.Document
import Verif.Lemmas.XmlRecord
/- The XML documents of variable-data telegrams. -/
namespace Mbus
open Spec

theorem hexDump_plain (l : List Byte) : Plain (hexDump l) ∧ (hexDump l).length = 3 * l.length - 1 := by
  have hf : ∀ b : Byte, Plain (fmtHex2 b) ∧ (fmtHex2 b).length = 2 := forall_byte (by decide +kernel)
  fun_induction hexDump l with
  | case1 => exact ⟨by decide, rfl⟩
  | case2 b => exact ⟨(hf b).1, (hf b).2⟩
  | case3 b bs h ih =>
    have hl : 1 ≤ bs.length := by cases bs with | nil => exact absurd rfl h | cons _ _ => simp
    refine ⟨?_, ?_⟩
    · intro c hc
      rcases List.mem_append.mp hc with hc | hc
      · exact (hf b).1 c hc
      · rcases List.mem_cons.mp hc with rfl | hc
        · decide
        · exact ih.1 c hc
    · simp only [List.length_append, List.length_cons, (hf b).2, ih.2]
      omega

theorem special_meaning (r : Record) (h : Special r) : meaning r = .raw (r.data.bytes.take r.dataLen).reverse := by
  have e : r.dif.toNat % 16 = 15 := by rcases h with h | h <;> rw [h] <;> decide
  unfold meaning
  simp only [e]

theorem upToNul_length (l : List Byte) : (upToNul l).length ≤ l.length := by
  unfold upToNul
  exact (List.takeWhile_sublist _).length_le

/-- Manufacturer specific data are shown as at most 701 characters that need no escaping. -/
theorem special_shown (r : Record) (h : Special r) (hl : r.dataLen ≤ 234) : (escape (upToNul (shown r))).length ≤ 701 := by
  unfold shown
  rw [special_meaning r h]
  dsimp only
  rw [upToNul_eq _ (hexDump_nonul _), escape_plain_length _ (hexDump_plain _).1, (hexDump_plain _).2]
  simp
  omega

/-- The raw bytes of an ordinary record are at most 64. -/
theorem Delivered.raw {r : Record} (h : Delivered r) (hs : ¬ Special r) (bs : List Byte) (hm : meaning r = .raw bs) : bs.length ≤ 64 := by
  obtain ⟨f, v, v', hs', hp, hr⟩ := h
  obtain ⟨_, _, rs, ht, hrs, _⟩ := variableParse_sound f v v' hs' hp
  rw [hrs] at hr
  obtain ⟨w, hw, rfl⟩ := List.mem_map.mp hr
  have hL := tiles_legal ht w hw
  cases w with
  | special dif data => exact absurd hL.1 hs
  | value dif difes vif text vifes data =>
    have hfit := hL.2.2.2.2.2.2.2.2.2
    obtain ⟨hdif, _, _, _, _, _, _, hdl, hdt⟩ := delivers_mkRec _ hL
    generalize mkRec (.value dif difes vif text vifes data) = r at *
    subst hdif
    have hl : r.data.bytes.length = 234 := r.data.length_bytes
    have hk : r.dif.toNat % 16 < 16 := Nat.mod_lt _ (by decide)
    unfold DataFits at hfit
    unfold meaning at hm
    dsimp only at hm
    generalize hK : r.dif.toNat % 16 = k at *
    match k, hk with
    | 0, _ | 1, _ | 3, _ | 5, _ | 7, _ | 8, _ | 9, _ | 10, _ | 11, _ | 12, _ | 14, _ => simp at hm
    | 2, _ | 4, _ | 6, _ => simp only at hm; split at hm <;> simp at hm
    | 13, _ =>
      rw [if_pos rfl] at hfit
      obtain ⟨lv, rest, rfl, hrest⟩ := hfit
      have hh : r.data.bytes.headD 0 = lv := by
        generalize r.data.bytes = d at *
        cases d with
        | nil => simp at hl
        | cons x xs =>
          rw [hdl] at hdt
          simp at hdt
          exact hdt.1
      simp only at hm
      rw [hh, hdt] at hm
      split at hm
      · simp at hm
      · rename_i hb
        injection hm with hm
        rw [← hm]
        have key : ∀ lv : Byte, ¬ lv.toNat ≤ 0xBF → lvarBytes lv ≤ 64 := forall_byte (by decide +kernel)
        have := key lv hb
        simp only [List.drop_succ_cons, List.drop_zero, List.length_reverse]
        omega
    | 15, _ =>
      rw [if_neg (by decide)] at hfit
      have : width r.dif = 8 := by unfold width; rw [hK]; rfl
      simp only at hm
      injection hm with hm
      rw [← hm]
      simp only [List.length_reverse, List.length_take]
      omega

theorem bcdText_short (r : Record) (n : Nat) (hn : n ≤ 8) :
    (if ErrorState r then hexDigits (leNat (r.data.bytes.take n)) else fmtInt (bcdValue (r.data.bytes.take n))).length ≤ 20 := by
  split
  · have := hex_short (r.data.bytes.take n) (by simp; omega)
    omega
  · exact fmtInt_length64 _ (bcd_big _ (by simp; omega))

/-- The text shown for an ordinary record is at most 233 characters long. -/
theorem Delivered.shown_short {r : Record} (h : Delivered r) (hs : ¬ Special r) : (shown r).length ≤ 233 := by
  have hraw := h.raw hs
  obtain ⟨h1, _, _⟩ := h.bounds
  have hI : ∀ n, n ≤ 8 → (fmtInt (leInt (r.data.bytes.take n))).length ≤ 20 := fun n hn =>
    fmtInt_length64 _ (leInt_bound _ (by simp; omega))
  have hR : ∀ bs, meaning r = .raw bs → (hexDump bs).length ≤ 233 := fun bs e => by
    have := hraw bs e
    rw [(hexDump_plain bs).2]
    omega
  unfold shown
  unfold meaning at hR ⊢
  have hk : r.dif.toNat % 16 < 16 := Nat.mod_lt _ (by decide)
  dsimp only at hR ⊢
  generalize hK : r.dif.toNat % 16 = k at *
  match k, hk with
  | 0, _ => simp
  | 1, _ => exact Nat.le_trans (hI 1 (by decide)) (by decide)
  | 2, _ =>
    simp only
    by_cases hd : IsDate r
    · rw [if_pos hd]; simp
    · rw [if_neg hd]; exact Nat.le_trans (hI 2 (by decide)) (by decide)
  | 3, _ => exact Nat.le_trans (hI 3 (by decide)) (by decide)
  | 4, _ =>
    simp only
    by_cases hd : IsDateTime r
    · rw [if_pos hd]; simp
    · rw [if_neg hd]; exact Nat.le_trans (hI 4 (by decide)) (by decide)
  | 5, _ => exact Nat.le_trans (fmtF_length _) (by decide)
  | 6, _ =>
    simp only
    by_cases hd : IsDateTime r
    · rw [if_pos hd]; simp
    · rw [if_neg hd]; exact Nat.le_trans (hI 6 (by decide)) (by decide)
  | 7, _ => exact Nat.le_trans (hI 8 (by decide)) (by decide)
  | 8, _ => simp [fmtHex2L]
  | 9, _ => exact Nat.le_trans (bcdText_short r 1 (by decide)) (by decide)
  | 10, _ => exact Nat.le_trans (bcdText_short r 2 (by decide)) (by decide)
  | 11, _ => exact Nat.le_trans (bcdText_short r 3 (by decide)) (by decide)
  | 12, _ => exact Nat.le_trans (bcdText_short r 4 (by decide)) (by decide)
  | 13, _ =>
    simp only at hR ⊢
    by_cases hd : (r.data.bytes.headD 0).toNat ≤ 0xBF
    · rw [if_pos hd]
      simp
      omega
    · rw [if_neg hd] at hR ⊢
      exact hR _ rfl
  | 14, _ => exact Nat.le_trans (bcdText_short r 6 (by decide)) (by decide)
  | 15, _ => exact hR _ rfl
  | n + 16, h => exact absurd h (by omega)

/-- What a record must satisfy so that its XML is printed completely. -/
def Ready (it : Item) : Prop := Printable it.1 it.2.1 ∧ StampOk it.2.2 ∧ Modest it.1 it.2.1

theorem recordXml_modest (junk : Nat → Byte) (it : Item) (h : Ready it) (id : Nat) (hid : id < 2 ^ 31) (frame : Option Nat)
    (hf : ∀ k, frame = some k → k < 2 ^ 31) :
    recordXml junk it.1 it.2.2 id (frameArg frame) = .ok (recordGroup id frame it.1 it.2.1 it.2.2).render ∧
    (recordGroup id frame it.1 it.2.1 it.2.2).render.length ≤ 1011 ∧ (0 : Byte) ∉ (recordGroup id frame it.1 it.2.1 it.2.2).render := by
  obtain ⟨r, u, stamp⟩ := it
  obtain ⟨hp, hst, hm⟩ := h
  dsimp only at hp hst hm ⊢
  obtain ⟨ue, ve, hue, hve, he⟩ := recordXml_runs junk r u hp stamp hst id hid frame hf
  have hlen := rawGroup_length id frame hid hf r (escape u) (escape (upToNul (shown r))) stamp hst hp.storage
  have hv : ve = escape (upToNul (shown r)) := hve.whole (by
    rcases hm with h | h
    · have := special_shown r h hp.dlen; omega
    · omega)
  rw [recordGroup_raw]
  refine ⟨?_, ?_, rawGroup_nonul _ _ _ _ _ _ (escape_nonul _ hp.unit0) (escape_nonul _ (upToNul_nonul _)) (fun t h => (hst t h).1)⟩
  · rw [he, hv]
    by_cases hs : Special r
    · congr 1
      simp only [rawGroup, if_pos hs]
    · rw [hue.whole (by rcases hm with h | h; exact absurd h hs; omega)]
  · by_cases hs : Special r
    · rw [if_pos hs] at hlen
      have := special_shown r hs hp.dlen
      omega
    · rw [if_neg hs] at hlen
      rcases hm with h | h
      · exact absurd h hs
      · omega

theorem grow_text {b : XBuf} {n : Nat} {t : List Byte} (junk : Nat → Byte) (h : Text b n t) (hn : 8192 ≤ n) (hl : t.length < n) :
    ∃ n', 8192 ≤ n' ∧ t.length + 1024 ≤ n' ∧ Text (b.grow junk) n' t := by
  obtain ⟨h1, h2, h3⟩ := h
  unfold XBuf.grow
  by_cases hg : b.len ≤ b.mem.length ∧ b.mem.length - b.len < 1024
  · rw [if_pos hg]
    refine ⟨n + n, by omega, by omega, by simp [h1], h2, ?_⟩
    exact h3.trans (List.prefix_append _ _)
  · rw [if_neg hg]
    exact ⟨n, hn, by omega, h1, h2, h3⟩

/-- The buffer holds the text `t`, with room for the closing tag. -/
def Roomy (b : XBuf) (t : List Byte) : Prop := ∃ n, 8192 ≤ n ∧ t.length + 12 < n ∧ Text b n t

theorem int32_nat (n : Nat) (h : n < 2 ^ 31) : int32 (n : Int) = .ok (n : Int) := by
  exact int32_ok _ (by omega) (by omega)

theorem recordsXml_runs (junk : Nat → Nat → Byte) (frame : Option Nat) (hf : ∀ k, frame = some k → k < 2 ^ 31) (its : List Item)
    (h : ∀ it ∈ its, Ready it) (start : Nat) (hc : start + its.length < 2 ^ 31) (b : XBuf) (t : List Byte) (hb : Roomy b t) :
    Runs (recordsXml junk (frameArg frame) (its.map fun it => (it.1, it.2.2)) start b)
      (fun p => p.2 = ((start + its.length : Nat) : Int) ∧ Roomy p.1 (t ++ (recordGroups frame start its).flatMap Group.render)) := by
  induction its generalizing start b t with
  | nil => exact .ok ⟨rfl, by simpa [recordGroups] using hb⟩
  | cons it its ih =>
    obtain ⟨n, h1, h2, h3⟩ := hb
    obtain ⟨n', g1, g2, g3⟩ := grow_text (scratch (junk ((start : Int)).toNat) 3) h3 h1 (by omega)
    have hc' : start + 1 + its.length < 2 ^ 31 := by simp at hc; omega
    obtain ⟨e1, e2, e3⟩ := recordXml_modest (junk ((start : Int)).toNat) it (h it (List.mem_cons_self ..)) start (by omega) frame hf
    simp only [List.map_cons, recordsXml]
    rw [e1, ok_bind]
    refine put_bind g3.holds _ (by omega) fun b' hb' => ?_
    have : ((start : Int) + 1) = ((start + 1 : Nat) : Int) := by simp
    rw [this, int32_nat _ (by omega), ok_bind]
    obtain ⟨p, hp, hp1, hp2⟩ := ih (fun x hx => h x (List.mem_cons_of_mem _ hx)) (start + 1) (by omega) b' _ ⟨n', g1, by simp; omega, hb'⟩
    refine ⟨p, hp, ?_, ?_⟩
    · rw [hp1]; simp; omega
    · simpa [recordGroups] using hp2

theorem close_runs {b : XBuf} {t : List Byte} (h : Roomy b t) :
    Runs (b.put (cs! "</MBusData>\n")) (fun b => t ++ cs! "</MBusData>\n" ++ [0] <+: b.mem) := by
  obtain ⟨n, _, h2, h3⟩ := h
  exact put_last h3.holds _ (by simp; omega) fun b hb => hb.2.2

/-- Start of a document with the slave information. -/
theorem start_runs {α : Type} (junk junk0 : Nat → Byte) (h : VarHeader) (p : List Byte) (hp : productName h = .ok p) (k : XBuf → C α)
    (Q : α → Prop) (hk : ∀ b, Roomy b (cs! "<?xml version=\"1.0\" encoding=\"ISO-8859-1\"?>\n<MBusData>\n\n" ++
      (slaveGroup h p (mediumLookup h.medium)).render) → Runs (k b) Q) :
    Runs (do
      let b : XBuf := ⟨malloc junk 8192, 0⟩
      let b ← b.put XML_PI
      let b ← b.put (cs! "<MBusData>\n\n")
      let t ← headerXml junk0 h
      let b ← b.put t
      k b) Q := by
  obtain ⟨p', hp', h1, h2, h3⟩ := headerXml_runs junk0 h
  rw [hp] at hp'
  injection hp' with hp'
  subst hp'
  refine put_bind (holds_new _ _) _ (by simp [XML_PI]) fun b1 hb1 => ?_
  refine put_bind hb1.holds _ (by simp [XML_PI]) fun b2 hb2 => ?_
  rw [h1, ok_bind]
  refine put_bind hb2.holds _ (by simp [XML_PI]; omega) fun b3 hb3 => ?_
  refine hk b3 ⟨8192, by decide, ?_, ?_⟩
  · simp; omega
  · simpa [XML_PI] using hb3

/-- The document of a variable-data telegram. -/
theorem variableXml_runs (junk0 : Nat → Byte) (junk : Nat → Nat → Byte) (h : VarHeader) (p : List Byte) (hp : productName h = .ok p)
    (its : List Item) (hr : ∀ it ∈ its, Ready it) (hc : its.length < 2 ^ 31) :
    Runs (variableXml junk0 junk h (its.map fun it => (it.1, it.2.2)))
      (fun m => document (slaveGroup h p (mediumLookup h.medium) :: recordGroups none 0 its) ++ [0] <+: m) := by
  unfold variableXml
  refine start_runs _ _ h p hp _ _ fun b hb => ?_
  refine (recordsXml_runs junk none (by simp) its hr 0 (by omega) b _ hb).bind fun q hq => ?_
  obtain ⟨b', cnt⟩ := q
  refine (close_runs hq.2).bind fun b'' hb'' => .ok ?_
  simpa [document] using hb''

theorem Reads.any {f : Frame} {h : VarHeader} {rs : List Record} (hr : Reads f h rs) (y : FrameData) :
    ∃ v : VarData, v.header = h ∧ v.records = rs ∧ frameDataParse f y = .ok (0, { y with type := DATA_VARIABLE, var := v }) ∧
      variableParse f VarData.zero = .ok (0, v) := by
  obtain ⟨hs, x, hp, ht, hh, hrs⟩ := hr
  obtain ⟨c1, c2, c3⟩ := frameDataParse_cases f FrameData.new
  obtain ⟨d1, d2, d3⟩ := frameDataParse_cases f y
  have hdir : f.control &&& 0x40 = 0 := by
    by_cases h : f.control &&& 0x40 = 0
    · exact h
    · rw [c1 h] at hp; simp at hp
  have hci : f.ci = 0x72 := by
    by_cases h : f.ci = 0x72
    · exact h
    · exfalso
      by_cases h3 : f.ci = 0x73
      · rw [c2 hdir h3] at hp
        split at hp
        · simp at hp
        · obtain ⟨q, _, hq⟩ := bind_eq_ok.mp hp
          injection hq with hq
          injection hq with _ hq
          rw [← hq] at ht
          cases ht
      · by_cases h0 : f.ci = 0x70
        · rw [frameDataParse_error f _ hdir h0] at hp
          injection hp with hp
          injection hp with _ hp
          rw [← hp] at ht
          cases ht
        · rw [C35_refuse f FrameData.new (.inr (by simp [h, h3, h0]))] at hp
          simp at hp
  rw [c3 hdir hci] at hp
  rw [d3 hdir hci]
  by_cases h0 : f.dataSize = 0
  · rw [if_pos h0] at hp; simp at hp
  · rw [if_neg h0] at hp ⊢
    obtain ⟨⟨c, v⟩, hv, hq⟩ := bind_eq_ok.mp hp
    injection hq with hq
    injection hq with hq1 hq2
    dsimp only at hq1 hq2
    subst hq1
    rw [← hq2] at hh hrs
    have h12 : 12 ≤ f.dataSize := (variableParse_sound f _ v hs hv).1
    obtain ⟨_, e1, _, e2⟩ := variableParse_eq f FrameData.new.var h12
    obtain ⟨_, e3, _, e4⟩ := variableParse_eq f y.var h12
    obtain ⟨_, e5, _, e6⟩ := variableParse_eq f VarData.zero h12
    rw [e1] at e3 e5
    injection e3 with e3
    injection e5 with e5
    subst e3 e5
    rw [← e2] at e4 e6
    refine ⟨v, hh, hrs, ?_, by rw [e6, hv]⟩
    rw [e4, hv]
    rfl

theorem Reads.delivered {f : Frame} {h : VarHeader} {rs : List Record} (hr : Reads f h rs) : ∀ r ∈ rs, Delivered r := by
  obtain ⟨v, _, hv, _, hp⟩ := hr.any FrameData.new
  intro r hm
  exact ⟨f, _, v, hr.1, hp, by rw [hv]; exact hm⟩

theorem items_map (its : List Item) (stamp : Option (List Byte)) (h : ∀ it ∈ its, it.2.2 = stamp) :
    (its.map (·.1)).map (·, stamp) = its.map fun it => (it.1, it.2.2) := by
  rw [List.map_map]
  apply List.map_congr_left
  intro it hi
  simp [h it hi]

theorem chainXml_runs (junk : Nat → Nat → Byte) (ts : List Telegram) (tss : List (List Item)) (hp : Pointwise ItemsOf ts tss)
    (hr : ∀ its ∈ tss, ∀ it ∈ its, Ready it) (x : FrameData) (freed : Bool) (cnt k : Nat) (hc : cnt + total tss < 2 ^ 31)
    (hk : k + tss.length < 2 ^ 31) (b : XBuf) (t : List Byte) (hb : Roomy b t) :
    Runs (chainXml junk ts x freed cnt k b) (fun o => o.lostBuffer = false ∧ o.lostRecords = [] ∧ ∃ m, o.text = some m ∧
      t ++ (telegramGroups cnt k tss).flatMap Group.render ++ cs! "</MBusData>\n" ++ [0] <+: m) := by
  induction hp generalizing x freed cnt k b t with
  | nil =>
    refine (close_runs hb).bind fun b' hb' => .ok ⟨rfl, rfl, _, rfl, ?_⟩
    simpa [telegramGroups] using hb'
  | @cons tel its ts tss hi _ ih =>
    obtain ⟨f, stamp⟩ := tel
    obtain ⟨⟨h, hreads⟩, hst⟩ := hi
    obtain ⟨v, _, hv, hparse, _⟩ := hreads.any x
    have hc1 : cnt + its.length + total tss < 2 ^ 31 := by simp [total] at hc ⊢; omega
    have hk1 : k + 1 + tss.length < 2 ^ 31 := by simp at hk; omega
    unfold chainXml
    dsimp only at hst hparse
    rw [hparse, ok_bind]
    dsimp only
    rw [if_neg (by decide)]
    have e : (freed && decide (DATA_VARIABLE ≠ DATA_VARIABLE)) = false := by simp
    rw [e, if_neg (by decide), hv, items_map its stamp hst]
    refine (recordsXml_runs junk (some k) (fun j h => by injection h with h; omega) its (hr its (List.mem_cons_self ..)) cnt (by omega) b t
      hb).bind fun q hq => ?_
    obtain ⟨b', cnt'⟩ := q
    obtain ⟨rfl, hb'⟩ := hq
    dsimp only at hb' ⊢
    have : ((k : Int) + 1) = ((k + 1 : Nat) : Int) := by simp
    rw [this, int32_nat _ (by omega), ok_bind]
    obtain ⟨o, ho, h1, h2, m, h3, h4⟩ := ih (fun i hi => hr i (List.mem_cons_of_mem _ hi)) { x with type := DATA_VARIABLE, var := { v with records := [] } }
      (decide (its.map (·.1) ≠ [])) (cnt + its.length) (k + 1) hc1 hk1 b' _ hb'
    refine ⟨o, ho, h1, h2, m, h3, ?_⟩
    simpa [telegramGroups] using h4

/-- The document of a chain of variable-data telegrams. -/
theorem frameXml_runs (junk0 : Nat → Byte) (junk : Nat → Nat → Byte) (t : Telegram) (ts : List Telegram) (its : List Item)
    (tss : List (List Item)) (h : VarHeader) (p : List Byte) (hp : productName h = .ok p) (hread : Reads t.1 h (its.map (·.1)))
    (hst : ∀ it ∈ its, it.2.2 = t.2) (hi : Pointwise ItemsOf ts tss) (hr : ∀ i ∈ its :: tss, ∀ it ∈ i, Ready it)
    (hc : total (its :: tss) < 2 ^ 31) (hk : (its :: tss).length < 2 ^ 31) :
    Runs (frameXml junk0 junk t ts) (fun o => o.lostBuffer = false ∧ o.lostRecords = [] ∧ ∃ m, o.text = some m ∧
      document (slaveGroup h p (mediumLookup h.medium) :: readoutGroups (its :: tss)) ++ [0] <+: m) := by
  obtain ⟨v, hv1, hv, hparse, _⟩ := hread.any FrameData.new
  have hc1 : its.length + total tss < 2 ^ 31 := by simpa [total] using hc
  have hk1 : 1 + tss.length < 2 ^ 31 := by simp at hk; omega
  subst hv1
  unfold frameXml
  rw [hparse, ok_bind]
  dsimp only
  rw [if_neg (by decide), if_neg (by decide), if_neg (by decide), if_pos rfl, hv, items_map its t.2 hst]
  refine start_runs _ _ v.header p hp _ _ fun b hb => ?_
  cases hi with
  | nil =>
    have e : (if List.isEmpty ([] : List Telegram) = true then (-1 : Int) else 0) = frameArg none := rfl
    rw [e]
    refine (recordsXml_runs junk none (by simp) its (hr its (List.mem_cons_self ..)) 0 (by omega) b _ hb).bind fun q hq => ?_
    obtain ⟨b', cnt⟩ := q
    obtain ⟨rfl, hb'⟩ := hq
    dsimp only at hb' ⊢
    have e2 : int32 (frameArg none + 1) = .ok 0 := rfl
    rw [e2, ok_bind]
    refine (close_runs hb').bind fun b'' hb'' => .ok ⟨rfl, rfl, _, rfl, ?_⟩
    simpa [document, readoutGroups] using hb''
  | @cons t2 i2 ts2 tss2 hi2 hi3 =>
    have e : (if List.isEmpty (t2 :: ts2) = true then (-1 : Int) else 0) = frameArg (some 0) := rfl
    rw [e]
    refine (recordsXml_runs junk (some 0) (by simp) its (hr its (List.mem_cons_self ..)) 0 (by omega) b _ hb).bind fun q hq => ?_
    obtain ⟨b', cnt⟩ := q
    obtain ⟨rfl, hb'⟩ := hq
    dsimp only at hb' ⊢
    have e2 : int32 (frameArg (some 0) + 1) = .ok ((1 : Nat) : Int) := rfl
    rw [e2, ok_bind]
    obtain ⟨o, ho, h1, h2, m, h3, h4⟩ := chainXml_runs junk (t2 :: ts2) (i2 :: tss2) (.cons hi2 hi3) (fun i hi => hr i (List.mem_cons_of_mem _ hi))
      { FrameData.new with type := DATA_VARIABLE, var := { v with records := [] } } (decide (its.map (·.1) ≠ [])) (0 + its.length) 1
      (by omega) hk1 b' _ hb'
    refine ⟨o, ho, h1, h2, m, h3, ?_⟩
    simpa [document, readoutGroups, telegramGroups] using h4

end Mbus
